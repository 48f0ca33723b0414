import Verif.Model.Scalar4x64

/-!
# The x86_64 assembly of `/repo/src/scalar_4x64_impl.h`

With `USE_ASM_X86_64`, which the build systems set on x86_64 when the compiler accepts it (configure.ac:320,
CMakeLists.txt:151), `secp256k1_scalar_mul_512` and `secp256k1_scalar_reduce_512` are four `__asm__`
statements.  This file has a machine for the instructions they use, the four statements with their operand
constraints, and what a compiler may make of such a statement.

Simplifications.  Words are naturals below `2^64`, memory is a map from the addresses of 64-bit words to words
(all accesses in these statements are to aligned words).  Of the flags only the carry flag is modelled; no
instruction here reads another one.  An operand in memory (constraint `g`) is a local variable whose address
does not depend on a register that the statement may write (the stack or frame pointer).
-/

namespace Secp.Model.Asm

/-- General purpose registers -/
inductive Reg
  | rax | rbx | rcx | rdx | rsi | rdi | rbp | rsp | r8 | r9 | r10 | r11 | r12 | r13 | r14 | r15
deriving DecidableEq, Repr

/-- An operand as written in the template: `%%r8`, `%q3` or `%8`, `$0`, `32(%%rsi)`, `8(%q6)` -/
inductive Opd
  | reg (r : Reg)
  | op (k : Nat)
  | imm (v : Nat)
  | mem (off : Nat) (base : Reg)
  | memOp (off k : Nat)
deriving DecidableEq, Repr

/-- The instructions; the source comes first (AT&T syntax). -/
inductive Instr
  | mov (src dst : Opd)
  | xor (src dst : Opd)
  | add (src dst : Opd)
  | adc (src dst : Opd)
  | mul (src : Opd)
deriving DecidableEq, Repr

/-- Where the compiler puts operand number `k`: in a register, in memory, as a constant.  `cell` is a place of
its own that no machine has; only the proofs use it. -/
inductive Loc
  | reg (r : Reg)
  | slot (addr : Nat)
  | imm (v : Nat)
  | cell (k : Nat)
deriving DecidableEq, Repr

/-- The state of the machine (and the `cell`s) -/
structure St where
  reg : Reg → Nat
  cf : Bool
  mem : Nat → Nat
  cell : Nat → Nat

namespace St

/-- Registers, memory words and cells hold 64 bits. -/
structure Words (s : St) : Prop where
  reg : ∀ r, s.reg r < 2 ^ 64
  mem : ∀ a, s.mem a < 2 ^ 64
  cell : ∀ k, s.cell k < 2 ^ 64

def setReg (s : St) (r : Reg) (v : Nat) : St := { s with reg := Function.update s.reg r v }
def setMem (s : St) (a v : Nat) : St := { s with mem := Function.update s.mem a v }
def setCell (s : St) (k v : Nat) : St := { s with cell := Function.update s.cell k v }

/-- The contents of a place -/
def get (s : St) : Loc → Nat
  | .reg r => s.reg r
  | .slot a => s.mem a
  | .imm v => v
  | .cell k => s.cell k

/-- Writing to a place.  A constant cannot be written to. -/
def set (s : St) (v : Nat) : Loc → St
  | .reg r => s.setReg r v
  | .slot a => s.setMem a v
  | .imm _ => s
  | .cell k => s.setCell k v

/-- The value of an operand under the assignment `σ` of places to operand numbers -/
def read (s : St) (σ : Nat → Loc) : Opd → Nat
  | .reg r => s.reg r
  | .op k => s.get (σ k)
  | .imm v => v
  | .mem off b => s.mem (s.reg b + off)
  | .memOp off k => s.mem (s.get (σ k) + off)

/-- Writing to an operand -/
def write (s : St) (σ : Nat → Loc) (v : Nat) : Opd → St
  | .reg r => s.setReg r v
  | .op k => s.set v (σ k)
  | .imm _ => s
  | .mem off b => s.setMem (s.reg b + off) v
  | .memOp off k => s.setMem (s.get (σ k) + off) v

end St

/-- One instruction: `mov` leaves the flags alone, `xor` clears the carry flag, `add` and `adc` set it to the
carry, `mul` puts the product with `rax` into `rdx:rax` and sets the carry flag when the high half is not
zero. -/
def step (σ : Nat → Loc) (s : St) : Instr → St
  | .mov a b => s.write σ (s.read σ a) b
  | .xor a b => { s.write σ (s.read σ a ^^^ s.read σ b) b with cf := false }
  | .add a b =>
    let t := s.read σ a + s.read σ b
    { s.write σ (t % 2 ^ 64) b with cf := decide (2 ^ 64 ≤ t) }
  | .adc a b =>
    let t := s.read σ a + s.read σ b + bit s.cf
    { s.write σ (t % 2 ^ 64) b with cf := decide (2 ^ 64 ≤ t) }
  | .mul a =>
    let t := s.reg .rax * s.read σ a
    { (s.setReg .rax (t % 2 ^ 64)).setReg .rdx (t / 2 ^ 64) with cf := decide (2 ^ 64 ≤ t) }

/-- A sequence of instructions -/
def run (σ : Nat → Loc) (s : St) (l : List Instr) : St := l.foldl (step σ) s

/-- An input constraint: `"g"` (anywhere), `"S"`, `"D"` (a given register), `"i"` (the constant) -/
inductive Constraint
  | g
  | fixed (r : Reg)
  | imm (v : Nat)
deriving DecidableEq, Repr

/-- An `__asm__` statement: the template, the outputs (`"=g"` and `"=&g"`; the flag is the `&`), the inputs and
the clobbered registers. -/
structure Stmt where
  code : List Instr
  outs : List (Nat × Bool)
  ins : List (Nat × Constraint)
  clob : List Reg

/-- The places that GCC's constraints allow (GCC manual, Extended Asm and Constraint Modifiers).  `obj` are the
addresses of the arrays that the statement reaches through pointers: no local variable is there.  An output
with `&` shares its place with no input; one without `&` may.  Inputs may share places with each other. -/
structure Stmt.Allowed (b : Stmt) (obj : Nat → Prop) (σ : Nat → Loc) : Prop where
  /-- an output is in a register that is not clobbered, or in memory -/
  outs : ∀ k e, (k, e) ∈ b.outs → (∃ r, σ k = .reg r ∧ r ∉ b.clob ∧ r ≠ .rsp) ∨ ∃ a, σ k = .slot a ∧ ¬ obj a
  /-- different outputs are in different places -/
  distinct : ∀ k e k' e', (k, e) ∈ b.outs → (k', e') ∈ b.outs → k ≠ k' → σ k ≠ σ k'
  /-- a `"g"` input is in a register that is not clobbered, or in memory, or a constant -/
  ins : ∀ k, (k, .g) ∈ b.ins →
    (∃ r, σ k = .reg r ∧ r ∉ b.clob) ∨ (∃ a, σ k = .slot a ∧ ¬ obj a) ∨ ∃ v, σ k = .imm v
  fixed : ∀ k r, (k, .fixed r) ∈ b.ins → σ k = .reg r
  imm : ∀ k v, (k, .imm v) ∈ b.ins → σ k = .imm v
  /-- `&`: not in the place of an input -/
  early : ∀ k c k', (k, true) ∈ b.outs → (k', c) ∈ b.ins → σ k ≠ σ k'

/-- The statement can take the inputs `v` and the memory `m` to the outputs `w` and the memory `m'`: for some
choice of places that the constraints allow, and some contents of all other registers and memory.  Of the
memory only the objects count. -/
def Stmt.Exec (b : Stmt) (obj : Nat → Prop) (v : Nat → Nat) (m : Nat → Nat) (w : Nat → Nat) (m' : Nat → Nat) :
    Prop :=
  ∃ (σ : Nat → Loc) (s : St), s.Words ∧ b.Allowed obj σ ∧
    (∀ k c, (k, c) ∈ b.ins → s.get (σ k) = v k ∧ v k < 2 ^ 64) ∧
    (∀ a, obj a → s.mem a = m a) ∧ (∀ k e, (k, e) ∈ b.outs → (run σ s b.code).get (σ k) = w k) ∧
    ∀ a, obj a → (run σ s b.code).mem a = m' a

/-- 512 bits into 385: outputs 0 to 6 are `m0..m6`, input 7 is `l`, scalar_4x64_impl.h:354-457 -/
def reduceA : Stmt where
  code := [
   -- Preload.
   .mov (.mem 32 .rsi) (.reg .r11), .mov (.mem 40 .rsi) (.reg .r12), .mov (.mem 48 .rsi) (.reg .r13),
   .mov (.mem 56 .rsi) (.reg .r14),
   -- Initialize r8,r9,r10
   .mov (.mem 0 .rsi) (.reg .r8), .xor (.reg .r9) (.reg .r9), .xor (.reg .r10) (.reg .r10),
   -- (r8,r9) += n0 * c0
   .mov (.op 8) (.reg .rax), .mul (.reg .r11), .add (.reg .rax) (.reg .r8), .adc (.reg .rdx) (.reg .r9),
   -- extract m0
   .mov (.reg .r8) (.op 0), .xor (.reg .r8) (.reg .r8),
   -- (r9,r10) += l1
   .add (.mem 8 .rsi) (.reg .r9), .adc (.imm 0) (.reg .r10),
   -- (r9,r10,r8) += n1 * c0
   .mov (.op 8) (.reg .rax), .mul (.reg .r12), .add (.reg .rax) (.reg .r9), .adc (.reg .rdx) (.reg .r10),
   .adc (.imm 0) (.reg .r8),
   -- (r9,r10,r8) += n0 * c1
   .mov (.op 9) (.reg .rax), .mul (.reg .r11), .add (.reg .rax) (.reg .r9), .adc (.reg .rdx) (.reg .r10),
   .adc (.imm 0) (.reg .r8),
   -- extract m1
   .mov (.reg .r9) (.op 1), .xor (.reg .r9) (.reg .r9),
   -- (r10,r8,r9) += l2
   .add (.mem 16 .rsi) (.reg .r10), .adc (.imm 0) (.reg .r8), .adc (.imm 0) (.reg .r9),
   -- (r10,r8,r9) += n2 * c0
   .mov (.op 8) (.reg .rax), .mul (.reg .r13), .add (.reg .rax) (.reg .r10), .adc (.reg .rdx) (.reg .r8),
   .adc (.imm 0) (.reg .r9),
   -- (r10,r8,r9) += n1 * c1
   .mov (.op 9) (.reg .rax), .mul (.reg .r12), .add (.reg .rax) (.reg .r10), .adc (.reg .rdx) (.reg .r8),
   .adc (.imm 0) (.reg .r9),
   -- (r10,r8,r9) += n0
   .add (.reg .r11) (.reg .r10), .adc (.imm 0) (.reg .r8), .adc (.imm 0) (.reg .r9),
   -- extract m2
   .mov (.reg .r10) (.op 2), .xor (.reg .r10) (.reg .r10),
   -- (r8,r9,r10) += l3
   .add (.mem 24 .rsi) (.reg .r8), .adc (.imm 0) (.reg .r9), .adc (.imm 0) (.reg .r10),
   -- (r8,r9,r10) += n3 * c0
   .mov (.op 8) (.reg .rax), .mul (.reg .r14), .add (.reg .rax) (.reg .r8), .adc (.reg .rdx) (.reg .r9),
   .adc (.imm 0) (.reg .r10),
   -- (r8,r9,r10) += n2 * c1
   .mov (.op 9) (.reg .rax), .mul (.reg .r13), .add (.reg .rax) (.reg .r8), .adc (.reg .rdx) (.reg .r9),
   .adc (.imm 0) (.reg .r10),
   -- (r8,r9,r10) += n1
   .add (.reg .r12) (.reg .r8), .adc (.imm 0) (.reg .r9), .adc (.imm 0) (.reg .r10),
   -- extract m3
   .mov (.reg .r8) (.op 3), .xor (.reg .r8) (.reg .r8),
   -- (r9,r10,r8) += n3 * c1
   .mov (.op 9) (.reg .rax), .mul (.reg .r14), .add (.reg .rax) (.reg .r9), .adc (.reg .rdx) (.reg .r10),
   .adc (.imm 0) (.reg .r8),
   -- (r9,r10,r8) += n2
   .add (.reg .r13) (.reg .r9), .adc (.imm 0) (.reg .r10), .adc (.imm 0) (.reg .r8),
   -- extract m4
   .mov (.reg .r9) (.op 4),
   -- (r10,r8) += n3
   .add (.reg .r14) (.reg .r10), .adc (.imm 0) (.reg .r8),
   -- extract m5
   .mov (.reg .r10) (.op 5),
   -- extract m6
   .mov (.reg .r8) (.op 6)]
  outs := [(0, true), (1, true), (2, true), (3, false), (4, false), (5, false), (6, false)]
  ins := [(7, .fixed .rsi), (8, .imm scNC0), (9, .imm scNC1)]
  clob := [.rax, .rdx, .r8, .r9, .r10, .r11, .r12, .r13, .r14]

/-- 385 bits into 258: outputs 0 to 4 are `p0..p4`, inputs 5 to 11 are `m0..m6`, scalar_4x64_impl.h:468-544 -/
def reduceB : Stmt where
  code := [
   -- Preload
   .mov (.op 9) (.reg .r11), .mov (.op 10) (.reg .r12), .mov (.op 11) (.reg .r13),
   -- Initialize (r8,r9,r10)
   .mov (.op 5) (.reg .r8), .xor (.reg .r9) (.reg .r9), .xor (.reg .r10) (.reg .r10),
   -- (r8,r9) += m4 * c0
   .mov (.op 12) (.reg .rax), .mul (.reg .r11), .add (.reg .rax) (.reg .r8), .adc (.reg .rdx) (.reg .r9),
   -- extract p0
   .mov (.reg .r8) (.op 0), .xor (.reg .r8) (.reg .r8),
   -- (r9,r10) += m1
   .add (.op 6) (.reg .r9), .adc (.imm 0) (.reg .r10),
   -- (r9,r10,r8) += m5 * c0
   .mov (.op 12) (.reg .rax), .mul (.reg .r12), .add (.reg .rax) (.reg .r9), .adc (.reg .rdx) (.reg .r10),
   .adc (.imm 0) (.reg .r8),
   -- (r9,r10,r8) += m4 * c1
   .mov (.op 13) (.reg .rax), .mul (.reg .r11), .add (.reg .rax) (.reg .r9), .adc (.reg .rdx) (.reg .r10),
   .adc (.imm 0) (.reg .r8),
   -- extract p1
   .mov (.reg .r9) (.op 1), .xor (.reg .r9) (.reg .r9),
   -- (r10,r8,r9) += m2
   .add (.op 7) (.reg .r10), .adc (.imm 0) (.reg .r8), .adc (.imm 0) (.reg .r9),
   -- (r10,r8,r9) += m6 * c0
   .mov (.op 12) (.reg .rax), .mul (.reg .r13), .add (.reg .rax) (.reg .r10), .adc (.reg .rdx) (.reg .r8),
   .adc (.imm 0) (.reg .r9),
   -- (r10,r8,r9) += m5 * c1
   .mov (.op 13) (.reg .rax), .mul (.reg .r12), .add (.reg .rax) (.reg .r10), .adc (.reg .rdx) (.reg .r8),
   .adc (.imm 0) (.reg .r9),
   -- (r10,r8,r9) += m4
   .add (.reg .r11) (.reg .r10), .adc (.imm 0) (.reg .r8), .adc (.imm 0) (.reg .r9),
   -- extract p2
   .mov (.reg .r10) (.op 2),
   -- (r8,r9) += m3
   .add (.op 8) (.reg .r8), .adc (.imm 0) (.reg .r9),
   -- (r8,r9) += m6 * c1
   .mov (.op 13) (.reg .rax), .mul (.reg .r13), .add (.reg .rax) (.reg .r8), .adc (.reg .rdx) (.reg .r9),
   -- (r8,r9) += m5
   .add (.reg .r12) (.reg .r8), .adc (.imm 0) (.reg .r9),
   -- extract p3
   .mov (.reg .r8) (.op 3),
   -- (r9) += m6
   .add (.reg .r13) (.reg .r9),
   -- extract p4
   .mov (.reg .r9) (.op 4)]
  outs := [(0, true), (1, true), (2, true), (3, false), (4, false)]
  ins := [(5, .g), (6, .g), (7, .g), (8, .g), (9, .g), (10, .g), (11, .g), (12, .imm scNC0), (13, .imm scNC1)]
  clob := [.rax, .rdx, .r8, .r9, .r10, .r11, .r12, .r13]

/-- 258 bits into 256: output 0 is `c`, inputs 1 to 5 are `p0..p4`, 6 is `r`; writes `r->d`, scalar_4x64_impl.h:553-596 -/
def reduceC : Stmt where
  code := [
   -- Preload
   .mov (.op 5) (.reg .r10),
   -- (rax,rdx) = p4 * c0
   .mov (.op 7) (.reg .rax), .mul (.reg .r10),
   -- (rax,rdx) += p0
   .add (.op 1) (.reg .rax), .adc (.imm 0) (.reg .rdx),
   -- extract r0
   .mov (.reg .rax) (.memOp 0 6),
   -- Move to (r8,r9)
   .mov (.reg .rdx) (.reg .r8), .xor (.reg .r9) (.reg .r9),
   -- (r8,r9) += p1
   .add (.op 2) (.reg .r8), .adc (.imm 0) (.reg .r9),
   -- (r8,r9) += p4 * c1
   .mov (.op 8) (.reg .rax), .mul (.reg .r10), .add (.reg .rax) (.reg .r8), .adc (.reg .rdx) (.reg .r9),
   -- Extract r1
   .mov (.reg .r8) (.memOp 8 6), .xor (.reg .r8) (.reg .r8),
   -- (r9,r8) += p4
   .add (.reg .r10) (.reg .r9), .adc (.imm 0) (.reg .r8),
   -- (r9,r8) += p2
   .add (.op 3) (.reg .r9), .adc (.imm 0) (.reg .r8),
   -- Extract r2
   .mov (.reg .r9) (.memOp 16 6), .xor (.reg .r9) (.reg .r9),
   -- (r8,r9) += p3
   .add (.op 4) (.reg .r8), .adc (.imm 0) (.reg .r9),
   -- Extract r3
   .mov (.reg .r8) (.memOp 24 6),
   -- Extract c
   .mov (.reg .r9) (.op 0)]
  outs := [(0, false)]
  ins := [(1, .g), (2, .g), (3, .g), (4, .g), (5, .g), (6, .fixed .rdi), (7, .imm scNC0), (8, .imm scNC1)]
  clob := [.rax, .rdx, .r8, .r9, .r10]

/-- The template of `secp256k1_scalar_mul_512`, scalar_4x64_impl.h:681-810.  All operands are in given
registers: `l8` in rsi, `a->d` in rdi, `b->d` in rdx (`"+d"`, so that its new value is the value of `pb`, which
is not used again). -/
def mul512 : List Instr := [
   -- Preload
   .mov (.mem 0 .rdi) (.reg .r15), .mov (.mem 8 .rdi) (.reg .rbx), .mov (.mem 16 .rdi) (.reg .rcx),
   .mov (.mem 0 .rdx) (.reg .r11), .mov (.mem 8 .rdx) (.reg .r12), .mov (.mem 16 .rdx) (.reg .r13),
   .mov (.mem 24 .rdx) (.reg .r14),
   -- (rax,rdx) = a0 * b0
   .mov (.reg .r15) (.reg .rax), .mul (.reg .r11),
   -- Extract l8[0]
   .mov (.reg .rax) (.mem 0 .rsi),
   -- (r8,r9,r10) = (rdx)
   .mov (.reg .rdx) (.reg .r8), .xor (.reg .r9) (.reg .r9), .xor (.reg .r10) (.reg .r10),
   -- (r8,r9,r10) += a0 * b1
   .mov (.reg .r15) (.reg .rax), .mul (.reg .r12), .add (.reg .rax) (.reg .r8), .adc (.reg .rdx) (.reg .r9),
   .adc (.imm 0) (.reg .r10),
   -- (r8,r9,r10) += a1 * b0
   .mov (.reg .rbx) (.reg .rax), .mul (.reg .r11), .add (.reg .rax) (.reg .r8), .adc (.reg .rdx) (.reg .r9),
   .adc (.imm 0) (.reg .r10),
   -- Extract l8[1]
   .mov (.reg .r8) (.mem 8 .rsi), .xor (.reg .r8) (.reg .r8),
   -- (r9,r10,r8) += a0 * b2
   .mov (.reg .r15) (.reg .rax), .mul (.reg .r13), .add (.reg .rax) (.reg .r9), .adc (.reg .rdx) (.reg .r10),
   .adc (.imm 0) (.reg .r8),
   -- (r9,r10,r8) += a1 * b1
   .mov (.reg .rbx) (.reg .rax), .mul (.reg .r12), .add (.reg .rax) (.reg .r9), .adc (.reg .rdx) (.reg .r10),
   .adc (.imm 0) (.reg .r8),
   -- (r9,r10,r8) += a2 * b0
   .mov (.reg .rcx) (.reg .rax), .mul (.reg .r11), .add (.reg .rax) (.reg .r9), .adc (.reg .rdx) (.reg .r10),
   .adc (.imm 0) (.reg .r8),
   -- Extract l8[2]
   .mov (.reg .r9) (.mem 16 .rsi), .xor (.reg .r9) (.reg .r9),
   -- (r10,r8,r9) += a0 * b3
   .mov (.reg .r15) (.reg .rax), .mul (.reg .r14), .add (.reg .rax) (.reg .r10), .adc (.reg .rdx) (.reg .r8),
   .adc (.imm 0) (.reg .r9),
   -- Preload a3
   .mov (.mem 24 .rdi) (.reg .r15),
   -- (r10,r8,r9) += a1 * b2
   .mov (.reg .rbx) (.reg .rax), .mul (.reg .r13), .add (.reg .rax) (.reg .r10), .adc (.reg .rdx) (.reg .r8),
   .adc (.imm 0) (.reg .r9),
   -- (r10,r8,r9) += a2 * b1
   .mov (.reg .rcx) (.reg .rax), .mul (.reg .r12), .add (.reg .rax) (.reg .r10), .adc (.reg .rdx) (.reg .r8),
   .adc (.imm 0) (.reg .r9),
   -- (r10,r8,r9) += a3 * b0
   .mov (.reg .r15) (.reg .rax), .mul (.reg .r11), .add (.reg .rax) (.reg .r10), .adc (.reg .rdx) (.reg .r8),
   .adc (.imm 0) (.reg .r9),
   -- Extract l8[3]
   .mov (.reg .r10) (.mem 24 .rsi), .xor (.reg .r10) (.reg .r10),
   -- (r8,r9,r10) += a1 * b3
   .mov (.reg .rbx) (.reg .rax), .mul (.reg .r14), .add (.reg .rax) (.reg .r8), .adc (.reg .rdx) (.reg .r9),
   .adc (.imm 0) (.reg .r10),
   -- (r8,r9,r10) += a2 * b2
   .mov (.reg .rcx) (.reg .rax), .mul (.reg .r13), .add (.reg .rax) (.reg .r8), .adc (.reg .rdx) (.reg .r9),
   .adc (.imm 0) (.reg .r10),
   -- (r8,r9,r10) += a3 * b1
   .mov (.reg .r15) (.reg .rax), .mul (.reg .r12), .add (.reg .rax) (.reg .r8), .adc (.reg .rdx) (.reg .r9),
   .adc (.imm 0) (.reg .r10),
   -- Extract l8[4]
   .mov (.reg .r8) (.mem 32 .rsi), .xor (.reg .r8) (.reg .r8),
   -- (r9,r10,r8) += a2 * b3
   .mov (.reg .rcx) (.reg .rax), .mul (.reg .r14), .add (.reg .rax) (.reg .r9), .adc (.reg .rdx) (.reg .r10),
   .adc (.imm 0) (.reg .r8),
   -- (r9,r10,r8) += a3 * b2
   .mov (.reg .r15) (.reg .rax), .mul (.reg .r13), .add (.reg .rax) (.reg .r9), .adc (.reg .rdx) (.reg .r10),
   .adc (.imm 0) (.reg .r8),
   -- Extract l8[5]
   .mov (.reg .r9) (.mem 40 .rsi),
   -- (r10,r8) += a3 * b3
   .mov (.reg .r15) (.reg .rax), .mul (.reg .r14), .add (.reg .rax) (.reg .r10), .adc (.reg .rdx) (.reg .r8),
   -- Extract l8[6]
   .mov (.reg .r10) (.mem 48 .rsi),
   -- Extract l8[7]
   .mov (.reg .r8) (.mem 56 .rsi)]

/-- Four words at an address -/
def sc4At (m : Nat → Nat) (a : Nat) : Sc4 := ⟨m a, m (a + 8), m (a + 16), m (a + 24)⟩

/-- Eight words at an address -/
def u512At (m : Nat → Nat) (a : Nat) : U512 :=
  ⟨m a, m (a + 8), m (a + 16), m (a + 24), m (a + 32), m (a + 40), m (a + 48), m (a + 56)⟩

/-- `secp256k1_scalar_mul_512` with assembly, scalar_4x64_impl.h:678-812: `l` is a possible result for `a` and
`b`.  The arrays may be anywhere, except that `l8` does not overlap `a` (in the callers it is a local variable,
scalar_4x64_impl.h:856, 887). -/
def Mul512 (a b : Sc4) (l : U512) : Prop :=
  ∃ (s : St), s.Words ∧ sc4At s.mem (s.reg .rdi) = a ∧ sc4At s.mem (s.reg .rdx) = b ∧
    (s.reg .rdi + 32 ≤ s.reg .rsi ∨ s.reg .rsi + 64 ≤ s.reg .rdi) ∧
    u512At (run .cell s mul512).mem (s.reg .rsi) = l

/-- The words of an array of `k` words at address `a` -/
def Array (a k : Nat) (x : Nat) : Prop := ∃ i < k, x = a + 8 * i

/-- `secp256k1_scalar_reduce_512` with assembly, scalar_4x64_impl.h:347-676: `r` is a possible result for `l`.
The three statements pass their results in local variables. -/
def Reduce512 (l : U512) (r : Sc4) : Prop :=
  ∃ (pl pr : Nat) (m₁ m₁' m₂ m₂' m₃ m₃' : Nat → Nat) (v₁ w₁ v₂ w₂ v₃ w₃ : Nat → Nat),
    u512At m₁ pl = l ∧ v₁ 7 = pl ∧ v₁ 8 = scNC0 ∧ v₁ 9 = scNC1 ∧
    reduceA.Exec (Array pl 8) v₁ m₁ w₁ m₁' ∧
    (∀ i < 7, v₂ (i + 5) = w₁ i) ∧ v₂ 12 = scNC0 ∧ v₂ 13 = scNC1 ∧
    reduceB.Exec (fun _ => False) v₂ m₂ w₂ m₂' ∧
    (∀ i < 5, v₃ (i + 1) = w₂ i) ∧ v₃ 6 = pr ∧ v₃ 7 = scNC0 ∧ v₃ 8 = scNC1 ∧
    reduceC.Exec (Array pr 4) v₃ m₃ w₃ m₃' ∧
    r = (sc4At m₃' pr).reduce (u64 (w₃ 0 + bit (sc4At m₃' pr).checkOverflow) % 2 ^ 32)

/-- `secp256k1_scalar_mul` with assembly, scalar_4x64_impl.h:855-864: `r` is a possible result for `a` and `b`. -/
def Mul (a b r : Sc4) : Prop := ∃ l, Mul512 a b l ∧ Reduce512 l r

/-- `secp256k1_scalar_mul_shift_var` with assembly, scalar_4x64_impl.h:889-909 -/
def MulShiftVar (a b : Sc4) (shift : Nat) (r : Sc4) : Prop := ∃ l, Mul512 a b l ∧ r = Sc4.shift512 l shift

end Secp.Model.Asm
