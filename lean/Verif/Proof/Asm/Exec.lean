import Verif.Proof.Asm.Alloc
import Verif.Proof.Scalar4x64Mul

/-!
# Groups of instructions as operations of the accumulator
-/

namespace Secp.Model.Asm
open Secp.Model

/-! ## Words stay words -/

theorem xor_lt {a b : ℕ} (ha : a < 2 ^ 64) (hb : b < 2 ^ 64) : a ^^^ b < 2 ^ 64 := Nat.xor_lt_two_pow ha hb

namespace St
variable {s : St}

theorem Words.setReg (h : s.Words) (r : Reg) {x : ℕ} (hx : x < 2 ^ 64) : (s.setReg r x).Words where
  reg r' := by
    by_cases e : r' = r
    · subst e; simpa [St.setReg] using hx
    · simp only [St.setReg, Function.update_of_ne e]; exact h.reg r'
  mem := h.mem
  cell := h.cell

theorem Words.setMem (h : s.Words) (a : ℕ) {x : ℕ} (hx : x < 2 ^ 64) : (s.setMem a x).Words where
  reg := h.reg
  mem a' := by
    by_cases e : a' = a
    · subst e; simpa [St.setMem] using hx
    · simp only [St.setMem, Function.update_of_ne e]; exact h.mem a'
  cell := h.cell

theorem Words.setCell (h : s.Words) (a : ℕ) {x : ℕ} (hx : x < 2 ^ 64) : (s.setCell a x).Words where
  reg := h.reg
  mem := h.mem
  cell a' := by
    by_cases e : a' = a
    · subst e; simpa [St.setCell] using hx
    · simp only [St.setCell, Function.update_of_ne e]; exact h.cell a'

theorem Words.setCf (h : s.Words) (c : Bool) : ({ s with cf := c } : St).Words := ⟨h.reg, h.mem, h.cell⟩

theorem Words.write (h : s.Words) (x : Opd) {v : ℕ} (hv : v < 2 ^ 64) : (s.write .cell v x).Words := by
  cases x with
  | reg r => exact h.setReg r hv
  | op k => exact h.setCell k hv
  | imm _ => exact h
  | mem off b => exact h.setMem _ hv
  | memOp off k => exact h.setMem _ hv

/-- The constants in the code fit a word. -/
def _root_.Secp.Model.Asm.Opd.Fits : Opd → Bool
  | .imm v => decide (v < 2 ^ 64)
  | _ => true

theorem Words.read (h : s.Words) {x : Opd} (hx : x.Fits = true) : s.read .cell x < 2 ^ 64 := by
  cases x with
  | reg r => exact h.reg r
  | op k => exact h.cell k
  | imm v => exact of_decide_eq_true hx
  | mem off b => exact h.mem _
  | memOp off k => exact h.mem _

end St

/-! ## The state without the carry flag -/

/-- Registers as fields, so that the state can be computed with -/
structure MS where
  rax : ℕ
  rbx : ℕ
  rcx : ℕ
  rdx : ℕ
  rsi : ℕ
  rdi : ℕ
  rbp : ℕ
  rsp : ℕ
  r8 : ℕ
  r9 : ℕ
  r10 : ℕ
  r11 : ℕ
  r12 : ℕ
  r13 : ℕ
  r14 : ℕ
  r15 : ℕ
  mem : ℕ → ℕ
  cell : ℕ → ℕ

namespace MS

def get (m : MS) : Reg → ℕ
  | .rax => m.rax | .rbx => m.rbx | .rcx => m.rcx | .rdx => m.rdx
  | .rsi => m.rsi | .rdi => m.rdi | .rbp => m.rbp | .rsp => m.rsp
  | .r8 => m.r8 | .r9 => m.r9 | .r10 => m.r10 | .r11 => m.r11
  | .r12 => m.r12 | .r13 => m.r13 | .r14 => m.r14 | .r15 => m.r15

def set (m : MS) (r : Reg) (v : ℕ) : MS :=
  match r with
  | .rax => { m with rax := v } | .rbx => { m with rbx := v } | .rcx => { m with rcx := v }
  | .rdx => { m with rdx := v } | .rsi => { m with rsi := v } | .rdi => { m with rdi := v }
  | .rbp => { m with rbp := v } | .rsp => { m with rsp := v } | .r8 => { m with r8 := v }
  | .r9 => { m with r9 := v } | .r10 => { m with r10 := v } | .r11 => { m with r11 := v }
  | .r12 => { m with r12 := v } | .r13 => { m with r13 := v } | .r14 => { m with r14 := v }
  | .r15 => { m with r15 := v }

def read (m : MS) : Opd → ℕ
  | .reg r => m.get r
  | .op k => m.cell k
  | .imm v => v
  | .mem off b => m.mem (m.get b + off)
  | .memOp off k => m.mem (m.cell k + off)

def write (m : MS) (v : ℕ) : Opd → MS
  | .reg r => m.set r v
  | .op k => { m with cell := Function.update m.cell k v }
  | .imm _ => m
  | .mem off b => { m with mem := Function.update m.mem (m.get b + off) v }
  | .memOp off k => { m with mem := Function.update m.mem (m.cell k + off) v }

end MS

/-- Forget the carry flag. -/
def St.ms (s : St) : MS :=
  ⟨s.reg .rax, s.reg .rbx, s.reg .rcx, s.reg .rdx, s.reg .rsi, s.reg .rdi, s.reg .rbp, s.reg .rsp, s.reg .r8,
    s.reg .r9, s.reg .r10, s.reg .r11, s.reg .r12, s.reg .r13, s.reg .r14, s.reg .r15, s.mem, s.cell⟩

theorem ms_get (s : St) (r : Reg) : s.ms.get r = s.reg r := by cases r <;> rfl

theorem ms_setReg (s : St) (r : Reg) (v : ℕ) : (s.setReg r v).ms = s.ms.set r v := by
  cases r <;> simp [St.setReg, St.ms, MS.set, Function.update_apply]

theorem ms_read (s : St) (x : Opd) : s.ms.read x = s.read .cell x := by
  cases x <;> simp [MS.read, St.read, ms_get, St.get] <;> rfl

theorem ms_write (s : St) (v : ℕ) (x : Opd) : (s.write .cell v x).ms = s.ms.write v x := by
  cases x with
  | reg r => exact ms_setReg s r v
  | op k => rfl
  | imm _ => rfl
  | mem off b => simp only [MS.write, ms_get]; rfl
  | memOp off k => rfl

theorem ms_cf (s : St) (c : Bool) : ({ s with cf := c } : St).ms = s.ms := rfl

/-! ## Groups of instructions -/

/-- The groups that the comments in the code name -/
inductive Mac
  /-- `(A,B,C) += x * y` -/
  | muladd (A B C : Reg) (x : Opd) (y : Reg)
  /-- `(A,B) += x * y` -/
  | muladdFast (A B : Reg) (x : Opd) (y : Reg)
  /-- `(A,B,C) += x` -/
  | sumadd (A B C : Reg) (x : Opd)
  /-- `(A,B) += x` -/
  | sumaddFast (A B : Reg) (x : Opd)
  /-- `A += x` -/
  | add (A : Reg) (x : Opd)
  /-- `(rax,rdx) = x * y` -/
  | mul (x : Opd) (y : Reg)
  | mov (x y : Opd)
  | zero (A : Reg)

namespace Mac

def code : Mac → List Instr
  | muladd A B C x y => [.mov x (.reg .rax), .mul (.reg y), .add (.reg .rax) (.reg A), .adc (.reg .rdx) (.reg B),
      .adc (.imm 0) (.reg C)]
  | muladdFast A B x y => [.mov x (.reg .rax), .mul (.reg y), .add (.reg .rax) (.reg A), .adc (.reg .rdx) (.reg B)]
  | sumadd A B C x => [.add x (.reg A), .adc (.imm 0) (.reg B), .adc (.imm 0) (.reg C)]
  | sumaddFast A B x => [.add x (.reg A), .adc (.imm 0) (.reg B)]
  | add A x => [.add x (.reg A)]
  | mul x y => [.mov x (.reg .rax), .mul (.reg y)]
  | mov x y => [.mov x y]
  | zero A => [.xor (.reg A) (.reg A)]

/-- The registers of the group are different. -/
def ok : Mac → Bool
  | muladd A B C x y => decide (A ≠ B ∧ A ≠ C ∧ B ≠ C ∧ A ≠ .rax ∧ A ≠ .rdx ∧ B ≠ .rax ∧ B ≠ .rdx ∧ C ≠ .rax ∧
      C ≠ .rdx ∧ y ≠ .rax) && x.Fits
  | muladdFast A B x y => decide (A ≠ B ∧ A ≠ .rax ∧ A ≠ .rdx ∧ B ≠ .rax ∧ B ≠ .rdx ∧ y ≠ .rax) && x.Fits
  | sumadd A B C x => decide (A ≠ B ∧ A ≠ C ∧ B ≠ C) && x.Fits
  | sumaddFast A B x => decide (A ≠ B) && x.Fits
  | add _ x => x.Fits
  | mul x y => decide (y ≠ .rax) && x.Fits
  | mov x _ => x.Fits
  | zero _ => true

def exec (m : MS) : Mac → MS
  | muladd A B C x y =>
    let c := Acc.muladd 64 ⟨m.get A, m.get B, m.get C⟩ (m.get y) (m.read x)
    ((((m.set .rax (m.get y * m.read x % 2 ^ 64)).set .rdx (m.get y * m.read x / 2 ^ 64)).set A c.c0).set B c.c1).set C
      c.c2
  | muladdFast A B x y =>
    let c := Acc.muladdFast ⟨m.get A, m.get B, 0⟩ (m.get y) (m.read x)
    (((m.set .rax (m.get y * m.read x % 2 ^ 64)).set .rdx (m.get y * m.read x / 2 ^ 64)).set A c.c0).set B c.c1
  | sumadd A B C x =>
    let c := Acc.sumadd 64 ⟨m.get A, m.get B, m.get C⟩ (m.read x)
    ((m.set A c.c0).set B c.c1).set C c.c2
  | sumaddFast A B x =>
    let c := Acc.sumaddFast ⟨m.get A, m.get B, 0⟩ (m.read x)
    (m.set A c.c0).set B c.c1
  | add A x => m.set A (u64 (m.get A + m.read x))
  | mul x y => (m.set .rax (m.get y * m.read x % 2 ^ 64)).set .rdx (m.get y * m.read x / 2 ^ 64)
  | mov x y => m.write (m.read x) y
  | zero A => m.set A 0

end Mac

theorem MS.set_set (m : MS) (r : Reg) (v w : ℕ) : (m.set r v).set r w = m.set r w := by cases r <;> rfl

theorem MS.get_set_of_ne (m : MS) {r r' : Reg} (h : r' ≠ r) (v : ℕ) : (m.set r v).get r' = m.get r' := by
  cases r <;> cases r' <;> first | rfl | exact absurd rfl h

theorem MS.get_set (m : MS) (r : Reg) (v : ℕ) : (m.set r v).get r = v := by cases r <;> rfl

theorem MS.read_reg (m : MS) (r : Reg) : m.read (.reg r) = m.get r := rfl

theorem MS.read_imm (m : MS) (v : ℕ) : m.read (.imm v) = v := rfl

/-! Single instructions on states without the carry flag -/

theorem step_mov (s : St) (x y : Opd) : (step .cell s (.mov x y)).ms = s.ms.write (s.ms.read x) y := by
  rw [ms_read]; exact ms_write _ _ _

theorem step_add (s : St) (x : Opd) (A : Reg) :
    (step .cell s (.add x (.reg A))).ms = s.ms.set A ((s.ms.read x + s.ms.get A) % 2 ^ 64) ∧
      (step .cell s (.add x (.reg A))).cf = decide (2 ^ 64 ≤ s.ms.read x + s.ms.get A) := by
  rw [ms_read, ms_get]
  exact ⟨ms_setReg _ _ _, rfl⟩

theorem step_adc (s : St) (x : Opd) (A : Reg) :
    (step .cell s (.adc x (.reg A))).ms = s.ms.set A ((s.ms.read x + s.ms.get A + bit s.cf) % 2 ^ 64) ∧
      (step .cell s (.adc x (.reg A))).cf = decide (2 ^ 64 ≤ s.ms.read x + s.ms.get A + bit s.cf) := by
  rw [ms_read, ms_get]
  exact ⟨ms_setReg _ _ _, rfl⟩

theorem step_mul (s : St) (y : Reg) :
    (step .cell s (.mul (.reg y))).ms =
      (s.ms.set .rax (s.ms.get .rax * s.ms.get y % 2 ^ 64)).set .rdx (s.ms.get .rax * s.ms.get y / 2 ^ 64) := by
  rw [ms_get, ms_get]
  show ((s.setReg .rax _).setReg .rdx _).ms = _
  rw [ms_setReg, ms_setReg]
  rfl

theorem step_xor (s : St) (A : Reg) : (step .cell s (.xor (.reg A) (.reg A))).ms = s.ms.set A 0 := by
  show (s.setReg A (s.reg A ^^^ s.reg A)).ms = _
  rw [ms_setReg, Nat.xor_self]

/-- The constants in an instruction fit a word. -/
def Instr.Fits : Instr → Bool
  | .mov x _ => x.Fits
  | .xor x y => x.Fits && y.Fits
  | .mul x => x.Fits
  | _ => true

theorem step_words {s : St} (hs : s.Words) {i : Instr} (hi : i.Fits = true) : (step .cell s i).Words := by
  cases i with
  | mov x y => exact hs.write y (hs.read hi)
  | xor x y =>
    have hi := (Bool.and_eq_true _ _).mp hi
    exact (hs.write y (xor_lt (hs.read hi.1) (hs.read hi.2))).setCf _
  | add x y => exact (hs.write y (Nat.mod_lt _ (by norm_num))).setCf _
  | adc x y => exact (hs.write y (Nat.mod_lt _ (by norm_num))).setCf _
  | mul x =>
    have h1 := hs.reg .rax
    have h2 := hs.read hi
    have := Nat.mul_lt_mul'' h1 h2
    exact ((hs.setReg .rax (Nat.mod_lt _ (by norm_num))).setReg .rdx
      (Nat.div_lt_of_lt_mul (by omega))).setCf _

theorem run_words {s : St} (hs : s.Words) {l : List Instr} (hl : l.all Instr.Fits = true) : (run .cell s l).Words := by
  induction l generalizing s with
  | nil => exact hs
  | cons i l ih =>
    rw [List.all_cons, Bool.and_eq_true] at hl
    exact ih (step_words hs hl.1) hl.2

theorem MS.get_lt {s : St} (hs : s.Words) (r : Reg) : s.ms.get r < 2 ^ 64 := by rw [ms_get]; exact hs.reg r

theorem MS.read_lt {s : St} (hs : s.Words) {x : Opd} (hx : x.Fits = true) : s.ms.read x < 2 ^ 64 := by
  rw [ms_read]; exact hs.read hx

/-! ## The carries -/

theorem carry_lo {x y : ℕ} (hx : x < 2 ^ 64) (hy : y < 2 ^ 64) :
    (decide ((x + y) % 2 ^ 64 < y)) = decide (2 ^ 64 ≤ y + x) := by
  rw [decide_eq_decide]; omega

theorem hi_lt {a b : ℕ} (ha : a < 2 ^ 64) (hb : b < 2 ^ 64) : a * b / 2 ^ 64 ≤ 2 ^ 64 - 2 := by
  have := Acc.prod_lt ha hb
  omega

theorem bit_le (b : Bool) : bit b ≤ 1 := by cases b <;> decide

theorem muladd_eq {c0 c1 c2 a b : ℕ} (h0 : c0 < 2 ^ 64) (h1 : c1 < 2 ^ 64) (ha : a < 2 ^ 64) (hb : b < 2 ^ 64) :
    Acc.muladd 64 ⟨c0, c1, c2⟩ a b =
      ⟨(a * b % 2 ^ 64 + c0) % 2 ^ 64,
        (a * b / 2 ^ 64 + c1 + bit (decide (2 ^ 64 ≤ a * b % 2 ^ 64 + c0))) % 2 ^ 64,
        (0 + c2 + bit (decide (2 ^ 64 ≤ a * b / 2 ^ 64 + c1 + bit (decide (2 ^ 64 ≤ a * b % 2 ^ 64 + c0))))) %
          2 ^ 64⟩ := by
  have hh := hi_lt ha hb
  have hl : a * b % 2 ^ 64 < 2 ^ 64 := Nat.mod_lt _ (by norm_num)
  have hp : a * b % 2 ^ 128 = a * b := Nat.mod_eq_of_lt (by have := Acc.prod_lt ha hb; omega)
  unfold Acc.muladd u128Mul u128HiU64 u128ToU64 u64
  dsimp only
  rw [Nat.shiftRight_eq_div_pow, hp, carry_lo h0 hl]
  have hk := bit_le (decide (2 ^ 64 ≤ a * b % 2 ^ 64 + c0))
  generalize bit (decide (2 ^ 64 ≤ a * b % 2 ^ 64 + c0)) = k at *
  generalize a * b % 2 ^ 64 = lo at *
  generalize a * b / 2 ^ 64 = hi at *
  clear hp
  have e1 : hi % 2 ^ 64 = hi := Nat.mod_eq_of_lt (by omega)
  have e2 : (hi + k) % 2 ^ 64 = hi + k := Nat.mod_eq_of_lt (by omega)
  simp only [e1, e2]
  have e3 := carry_lo h1 (show hi + k < 2 ^ 64 by omega)
  rw [e3]
  have e4 : hi + k + c1 = hi + c1 + k := by omega
  have e5 : c1 + (hi + k) = hi + c1 + k := by omega
  rw [e4, e5, Nat.add_comm c0 lo, Nat.zero_add]

theorem muladdFast_eq {c0 c1 c2 a b : ℕ} (h0 : c0 < 2 ^ 64) (ha : a < 2 ^ 64) (hb : b < 2 ^ 64) :
    Acc.muladdFast ⟨c0, c1, c2⟩ a b =
      ⟨(a * b % 2 ^ 64 + c0) % 2 ^ 64,
        (a * b / 2 ^ 64 + c1 + bit (decide (2 ^ 64 ≤ a * b % 2 ^ 64 + c0))) % 2 ^ 64, c2⟩ := by
  have hh := hi_lt ha hb
  have hl : a * b % 2 ^ 64 < 2 ^ 64 := Nat.mod_lt _ (by norm_num)
  have hp : a * b % 2 ^ 128 = a * b := Nat.mod_eq_of_lt (by have := Acc.prod_lt ha hb; omega)
  unfold Acc.muladdFast u128Mul u128HiU64 u128ToU64 u64
  dsimp only
  rw [Nat.shiftRight_eq_div_pow, hp, carry_lo h0 hl]
  have hk := bit_le (decide (2 ^ 64 ≤ a * b % 2 ^ 64 + c0))
  generalize bit (decide (2 ^ 64 ≤ a * b % 2 ^ 64 + c0)) = k at *
  generalize a * b % 2 ^ 64 = lo at *
  generalize a * b / 2 ^ 64 = hi at *
  clear hp
  have e1 : hi % 2 ^ 64 = hi := Nat.mod_eq_of_lt (by omega)
  have e2 : (hi + k) % 2 ^ 64 = hi + k := Nat.mod_eq_of_lt (by omega)
  simp only [e1, e2]
  have e5 : c1 + (hi + k) = hi + c1 + k := by omega
  rw [e5, Nat.add_comm c0 lo]

theorem sumadd_eq {c0 c1 c2 a : ℕ} (h0 : c0 < 2 ^ 64) (h1 : c1 < 2 ^ 64) (ha : a < 2 ^ 64) :
    Acc.sumadd 64 ⟨c0, c1, c2⟩ a =
      ⟨(a + c0) % 2 ^ 64, (0 + c1 + bit (decide (2 ^ 64 ≤ a + c0))) % 2 ^ 64,
        (0 + c2 + bit (decide (2 ^ 64 ≤ 0 + c1 + bit (decide (2 ^ 64 ≤ a + c0))))) % 2 ^ 64⟩ := by
  unfold Acc.sumadd u64
  dsimp only
  rw [carry_lo h0 ha]
  have hk := bit_le (decide (2 ^ 64 ≤ a + c0))
  generalize bit (decide (2 ^ 64 ≤ a + c0)) = k at *
  rw [carry_lo h1 (show k < 2 ^ 64 by omega), Nat.add_comm k c1, Nat.add_comm c0 a, Nat.zero_add, Nat.zero_add]

theorem sumaddFast_eq {c0 c1 c2 a : ℕ} (h0 : c0 < 2 ^ 64) (ha : a < 2 ^ 64) :
    Acc.sumaddFast ⟨c0, c1, c2⟩ a =
      ⟨(a + c0) % 2 ^ 64, (0 + c1 + bit (decide (2 ^ 64 ≤ a + c0))) % 2 ^ 64, c2⟩ := by
  unfold Acc.sumaddFast u64
  dsimp only
  rw [carry_lo h0 ha, Nat.add_comm c0 a, Nat.zero_add]

/-! ## A group is the operation of the accumulator -/

theorem run_mac {s : St} (hs : s.Words) {m : Mac} (hm : m.ok = true) : (run .cell s m.code).ms = m.exec s.ms := by
  cases m with
  | muladd A B C x y =>
    simp only [Mac.ok, Bool.and_eq_true, decide_eq_true_eq] at hm
    obtain ⟨⟨h1, h2, h3, h4, h5, h6, h7, h8, h9, h10⟩, hx⟩ := hm
    have gA := MS.get_lt hs A
    have gB := MS.get_lt hs B
    have gy := MS.get_lt hs y
    have gx := MS.read_lt hs hx
    simp only [Mac.exec, muladd_eq gA gB gy gx]
    show (step .cell (step .cell (step .cell (step .cell (step .cell s (.mov x (.reg .rax))) (.mul (.reg y)))
      (.add (.reg .rax) (.reg A))) (.adc (.reg .rdx) (.reg B))) (.adc (.imm 0) (.reg C))).ms = _
    rw [(step_adc _ _ _).1, (step_adc _ _ _).1, (step_adc _ _ _).2, (step_add _ _ _).1, (step_add _ _ _).2, step_mul,
      step_mov]
    simp only [MS.write, MS.set_set, MS.get_set, MS.read_reg, MS.read_imm, MS.get_set_of_ne _ h1, MS.get_set_of_ne _ h2,
      MS.get_set_of_ne _ h3, MS.get_set_of_ne _ h4, MS.get_set_of_ne _ h5, MS.get_set_of_ne _ h6,
      MS.get_set_of_ne _ h7, MS.get_set_of_ne _ h8, MS.get_set_of_ne _ h9, MS.get_set_of_ne _ h10,
      MS.get_set_of_ne _ h1.symm, MS.get_set_of_ne _ h2.symm, MS.get_set_of_ne _ h3.symm, MS.get_set_of_ne _ h4.symm,
      MS.get_set_of_ne _ h5.symm, MS.get_set_of_ne _ h6.symm, MS.get_set_of_ne _ h7.symm, MS.get_set_of_ne _ h8.symm,
      MS.get_set_of_ne _ h9.symm, MS.get_set_of_ne _ (show Reg.rax ≠ .rdx by decide)]
    rw [Nat.mul_comm (s.ms.read x)]
  | muladdFast A B x y =>
    simp only [Mac.ok, Bool.and_eq_true, decide_eq_true_eq] at hm
    obtain ⟨⟨h1, h4, h5, h6, h7, h10⟩, hx⟩ := hm
    have gA := MS.get_lt hs A
    have gy := MS.get_lt hs y
    have gx := MS.read_lt hs hx
    simp only [Mac.exec, muladdFast_eq gA gy gx]
    show (step .cell (step .cell (step .cell (step .cell s (.mov x (.reg .rax))) (.mul (.reg y)))
      (.add (.reg .rax) (.reg A))) (.adc (.reg .rdx) (.reg B))).ms = _
    rw [(step_adc _ _ _).1, (step_add _ _ _).1, (step_add _ _ _).2, step_mul, step_mov]
    simp only [MS.write, MS.set_set, MS.get_set, MS.read_reg, MS.read_imm, MS.get_set_of_ne _ h1, 
      MS.get_set_of_ne _ h4, MS.get_set_of_ne _ h5, MS.get_set_of_ne _ h6,
      MS.get_set_of_ne _ h7, MS.get_set_of_ne _ h10,
      MS.get_set_of_ne _ h1.symm, MS.get_set_of_ne _ h4.symm,
      MS.get_set_of_ne _ h5.symm, MS.get_set_of_ne _ h6.symm, MS.get_set_of_ne _ h7.symm,
      MS.get_set_of_ne _ (show Reg.rax ≠ .rdx by decide)]
    rw [Nat.mul_comm (s.ms.read x)]
  | sumadd A B C x =>
    simp only [Mac.ok, Bool.and_eq_true, decide_eq_true_eq] at hm
    obtain ⟨⟨h1, h2, h3⟩, hx⟩ := hm
    have gA := MS.get_lt hs A
    have gB := MS.get_lt hs B
    have gx := MS.read_lt hs hx
    simp only [Mac.exec, sumadd_eq gA gB gx]
    show (step .cell (step .cell (step .cell s (.add x (.reg A))) (.adc (.imm 0) (.reg B))) (.adc (.imm 0) (.reg C))).ms = _
    rw [(step_adc _ _ _).1, (step_adc _ _ _).1, (step_adc _ _ _).2, (step_add _ _ _).1, (step_add _ _ _).2]
    simp only [MS.read_reg, MS.read_imm, MS.get_set_of_ne _ h1.symm, MS.get_set_of_ne _ h2.symm, MS.get_set_of_ne _ h3.symm]
  | sumaddFast A B x =>
    simp only [Mac.ok, Bool.and_eq_true, decide_eq_true_eq] at hm
    obtain ⟨h1, hx⟩ := hm
    have gA := MS.get_lt hs A
    have gx := MS.read_lt hs hx
    simp only [Mac.exec, sumaddFast_eq gA gx]
    show (step .cell (step .cell s (.add x (.reg A))) (.adc (.imm 0) (.reg B))).ms = _
    rw [(step_adc _ _ _).1, (step_add _ _ _).1, (step_add _ _ _).2]
    simp only [MS.read_reg, MS.read_imm, MS.get_set_of_ne _ h1.symm]
  | add A x =>
    show (step .cell s (.add x (.reg A))).ms = _
    rw [(step_add _ _ _).1, Nat.add_comm]
    rfl
  | mul x y =>
    simp only [Mac.ok, Bool.and_eq_true, decide_eq_true_eq] at hm
    show (step .cell (step .cell s (.mov x (.reg .rax))) (.mul (.reg y))).ms = _
    rw [step_mul, step_mov]
    simp only [MS.write, MS.set_set, MS.get_set, MS.get_set_of_ne _ hm.1]
    rw [Nat.mul_comm (s.ms.read x)]
    rfl
  | mov x y => exact step_mov s x y
  | zero A => exact step_xor s A

theorem mac_fits {m : Mac} (hm : m.ok = true) : m.code.all Instr.Fits = true := by
  cases m <;>
    simp_all [Mac.ok, Mac.code, Instr.Fits, Opd.Fits]

/-- A sequence of groups -/
theorem run_macs : ∀ {s : St}, s.Words → ∀ {l : List Mac}, (l.all Mac.ok = true) →
    (run .cell s (l.flatMap Mac.code)).ms = l.foldl Mac.exec s.ms
  | _, _, [], _ => rfl
  | s, hs, m :: l, hl => by
    rw [List.all_cons, Bool.and_eq_true] at hl
    rw [List.flatMap_cons, run, List.foldl_append]
    show (run .cell (run .cell s m.code) _).ms = _
    rw [run_macs (run_words hs (mac_fits hl.1)) hl.2, run_mac hs hl.1]
    rfl

end Secp.Model.Asm
