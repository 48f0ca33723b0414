import Verif.Model.Asm.FieldArm

/-!
# Symbolic execution of the ARM code

The registers hold words (`W`) that are described by the inputs and by 64-bit sums (`S`); sums that are used more
than once are named by their position in a list `D` that is given in advance.  `sym` runs code on such
descriptions, and fails when it meets something that it cannot describe.  The theorem `sym_sound` says that it
describes the run of the machine.
-/

namespace Secp.Model.Arm

/-- Words that can be factors: limbs of the arguments, a doubled limb, a constant, the low `m` bits of the
`k`-th sum, its low and its high word -/
inductive F
  | a (i : Nat)
  | b (i : Nat)
  | a2 (i : Nat)
  | imm (v : Nat)
  | low (k m : Nat)
  | lo (k : Nat)
  | hi (k : Nat)
deriving DecidableEq, Repr

/-- A 64-bit sum: named sums shifted to the right, products, words, and products with weight `2^32` -/
structure S where
  shr : List (Nat × Nat) := []
  prods : List (F × F) := []
  words : List F := []
  hp : List (F × F) := []
deriving DecidableEq, Repr

/-- The memory regions -/
inductive Base
  | stk | a | b | r
deriving DecidableEq, Repr

/-- Words in registers -/
inductive W
  | f (x : F)
  | lo (s : S)
  | hi (s : S)
  | shrlo (s : S) (n : Nat)
  | ptr (g : Base) (off : Nat)
  | init (r : Nat)
deriving DecidableEq, Repr

/-- What the descriptions speak about -/
structure Env where
  s : St
  a : Nat
  b : Nat
  V : Nat → Nat

namespace Env

/-- The address of a region -/
def base (E : Env) : Base → Nat
  | .stk => E.s.reg 13 - 84
  | .a => E.a
  | .b => E.b
  | .r => E.s.reg 0

def f (E : Env) : F → Nat
  | .a i => E.s.mem (E.a + 4 * i)
  | .b i => E.s.mem (E.b + 4 * i)
  | .a2 i => u32 (E.s.mem (E.a + 4 * i) * 2)
  | .imm v => u32 v
  | .low k m => E.V k % 2 ^ m % 2 ^ 32
  | .lo k => E.V k % 2 ^ 32
  | .hi k => E.V k / 2 ^ 32 % 2 ^ 32

def prods (E : Env) : List (F × F) → Nat
  | [] => 0
  | (x, y) :: l => E.f x * E.f y + prods E l

def shrs (E : Env) : List (Nat × Nat) → Nat
  | [] => 0
  | (k, n) :: l => E.V k >>> n + shrs E l

def words (E : Env) : List F → Nat
  | [] => 0
  | x :: l => E.f x + words E l

def sum (E : Env) (s : S) : Nat :=
  (E.shrs s.shr + E.prods s.prods + E.words s.words + 2 ^ 32 * E.prods s.hp) % 2 ^ 64

def w (E : Env) : W → Nat
  | .f x => E.f x
  | .lo s => E.sum s % 2 ^ 32
  | .hi s => E.sum s / 2 ^ 32
  | .shrlo s n => (E.sum s % 2 ^ 32) >>> n
  | .ptr g off => E.base g + off
  | .init r => E.s.reg r

end Env

def S.add (x y : S) : S := ⟨x.shr ++ y.shr, x.prods ++ y.prods, x.words ++ y.words, x.hp ++ y.hp⟩

/-- Without the products of weight `2^32`, which the low word does not depend on -/
def S.noHp (x : S) : S := { x with hp := [] }

/-- A described state -/
structure Sym where
  regs : List W
  cf : Option (S × S)
  stk : List (Nat × W)
  out : List (Nat × W)

/-- The factor that a word is -/
def toF (D : List S) : W → Option F
  | .f x => some x
  | .lo s => (D.idxOf? s).map .lo
  | .hi s => (D.idxOf? s).map .hi
  | _ => none

/-- The sum whose low word a word is -/
def toS : W → Option S
  | .lo s => some s
  | .f x => some { words := [x] }
  | _ => none

namespace Sym

def set (st : Sym) (r : Nat) (w : W) : Sym := { st with regs := st.regs.set r w }

/-- A pointer plus an offset -/
def addr (off : Nat) : W → Option (Base × Nat)
  | .ptr .stk o => if o + off ≤ 84 then some (.stk, o + off) else none
  | .ptr g o => if o + off < 40 then some (g, o + off) else none
  | _ => none

def load (st : Sym) (d : Nat) (g : Base) (o : Nat) : Option Sym :=
  match g with
  | .stk => (st.stk.lookup o).map (st.set d)
  | .a => if st.out = [] ∧ 4 * (o / 4) = o ∧ o < 40 then some (st.set d (.f (.a (o / 4)))) else none
  | .b => if st.out = [] ∧ 4 * (o / 4) = o ∧ o < 40 then some (st.set d (.f (.b (o / 4)))) else none
  | .r => none

def store (st : Sym) (w : W) (g : Base) (o : Nat) : Option Sym :=
  match g with
  | .stk => if o < 84 then some { st with stk := (o, w) :: st.stk } else none
  | .r => if o < 40 then some { st with out := (o, w) :: st.out } else none
  | _ => none

def ldm (g : Base) (o : Nat) : List Nat → Sym → Option Sym
  | [], st => some st
  | r :: l, st => (st.load r g o).bind (ldm g (o + 4) l)

def stm (g : Base) (o : Nat) : List Nat → Sym → Option Sym
  | [], st => some st
  | r :: l, st => st.regs[r]?.bind fun w => (st.store w g o).bind (stm g (o + 4) l)

def asLo : W → Option S
  | .lo s => some s
  | _ => none

def asHi : W → Option S
  | .hi s => some s
  | _ => none

def asShrlo : W → Option (S × Nat)
  | .shrlo s n => some (s, n)
  | _ => none

def asA : W → Option Nat
  | .f (.a i) => some i
  | _ => none

/-- `mov rd, rm, lsr #sh` of a word -/
def lsr (D : List S) (sh : Nat) : W → Option W
  | .lo s => some (.shrlo s sh)
  | .hi s => (D.idxOf? s).map fun k => .hi { shr := [(k, sh)] }
  | _ => none

def test (c : Prop) [Decidable c] (st : Sym) : Option Sym := if c then some st else none

/-- One instruction -/
def step (D : List S) (st : Sym) : Instr → Option Sym
  | .ldr d n off => (st.regs[n]?.bind (addr off)).bind fun p => st.load d p.1 p.2
  | .str t n off => (st.regs[n]?.bind (addr off)).bind fun p => st.regs[t]?.bind fun w => st.store w p.1 p.2
  | .umull lo hi n m => (st.regs[n]?.bind (toF D)).bind fun x => (st.regs[m]?.bind (toF D)).bind fun y =>
    some ((st.set lo (.lo { prods := [(x, y)] })).set hi (.hi { prods := [(x, y)] }))
  | .umlal lo hi n m => (st.regs[n]?.bind (toF D)).bind fun x => (st.regs[m]?.bind (toF D)).bind fun y =>
    (st.regs[lo]?.bind asLo).bind fun l => (st.regs[hi]?.bind asHi).bind fun h =>
    test (l.noHp = h.noHp)
      ((st.set lo (.lo (h.add { prods := [(x, y)] }))).set hi (.hi (h.add { prods := [(x, y)] })))
  | .mla d n m a => (st.regs[n]?.bind (toF D)).bind fun x => (st.regs[m]?.bind (toF D)).bind fun y =>
    (st.regs[a]?.bind asHi).bind fun h => some (st.set d (.hi (h.add { hp := [(x, y)] })))
  | .bic d n imm => (st.regs[n]?.bind asLo).bind fun s => (D.idxOf? s).bind fun k =>
    test (imm = 0xfc000000) (st.set d (.f (.low k 26)))
  | .ubfx d n lsb width => (st.regs[n]?.bind asLo).bind fun s => (D.idxOf? s).bind fun k =>
    test (lsb = 0 ∧ width ≤ 32) (st.set d (.f (.low k width)))
  | .movLsr d m sh => (st.regs[m]?.bind (lsr D sh)).bind fun w => some (st.set d w)
  | .movLsl d m sh => (st.regs[m]?.bind asA).bind fun i => test (sh = 1) (st.set d (.f (.a2 i)))
  | .movi d imm => test (imm < 2 ^ 32) (st.set d (.f (.imm imm)))
  | .orrLsl d n m sh => (st.regs[n]?.bind asShrlo).bind fun x => (st.regs[m]?.bind asHi).bind fun h =>
    (D.idxOf? h).bind fun k =>
    test (x.1.noHp = h.noHp ∧ x.2 + sh = 32) (st.set d (.lo { shr := [(k, x.2)] }))
  | .adds d n m => (st.regs[n]?.bind toS).bind fun A => (st.regs[m]?.bind toS).bind fun B =>
    some { st.set d (.lo (A.add B)) with cf := some (A, B) }
  | .adc d n m => st.cf.bind fun c => (st.regs[n]?.bind asHi).bind fun A => (st.regs[m]?.bind asHi).bind fun B =>
    test (A.noHp = c.1.noHp ∧ B.noHp = c.2.noHp) (st.set d (.hi (A.add B)))
  | .adci d n imm => st.cf.bind fun c => (st.regs[n]?.bind asHi).bind fun A => c.2.words.head?.bind fun x =>
    test (imm = 0 ∧ A.noHp = c.1.noHp ∧ c.2 = { words := [x] }) (st.set d (.hi (A.add c.2)))
  | .add d n m => (st.regs[n]?.bind toS).bind fun A => (st.regs[m]?.bind toS).bind fun B =>
    some (st.set d (.lo (A.add B)))
  | .addi d n imm => (st.regs[n]?.bind (addr imm)).bind fun p => some (st.set d (.ptr p.1 p.2))
  | .subi d n imm => (st.regs[n]?.bind (addr 0)).bind fun p =>
    test (imm ≤ p.2) (st.set d (.ptr p.1 (p.2 - imm)))
  | .ldmia n l => (st.regs[n]?.bind (addr 0)).bind fun p => ldm p.1 p.2 l st
  | .stmia n l => (st.regs[n]?.bind (addr 0)).bind fun p => stm p.1 p.2 l st
  | .push l => (st.regs[13]?.bind (addr 0)).bind fun p =>
    if 4 * l.length ≤ p.2 then (stm p.1 (p.2 - 4 * l.length) l st).map (·.set 13 (.ptr p.1 (p.2 - 4 * l.length)))
    else none
  | .pop l => (st.regs[13]?.bind (addr (4 * l.length))).bind fun p =>
    (ldm p.1 (p.2 - 4 * l.length) l st).map (·.set 13 (.ptr p.1 p.2))

/-- A sequence of instructions -/
def run (D : List S) : List Instr → Sym → Option Sym
  | [], st => some st
  | i :: l, st => (st.step D i).bind (run D l)

end Sym

end Secp.Model.Arm
