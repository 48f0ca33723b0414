import Verif.Model.Field10x26

/-!
# The ARM assembly of `/repo/src/asm/field_10x26_arm.s`

With `--with-asm=arm32` (configure.ac:206, CMakeLists.txt) the functions `secp256k1_fe_mul_inner` and
`secp256k1_fe_sqr_inner` of the 10x26 field are written in ARM assembly.  This file has a machine for the
instructions they use, the two functions, instruction by instruction, and what a call of them is.

Simplifications.  Words are naturals below `2^32`; memory is a map from the addresses of 32-bit words to words (all
accesses are to aligned words).  Of the flags only the carry flag is modelled; no instruction here reads another one.
Execution ends with the `ldmfd` that loads the program counter.
-/

namespace Secp.Model.Arm

/-- The instructions (`.syntax unified`).  Registers are numbers: 13 is `sp`, 14 the link register, 15 `pc`. -/
inductive Instr
  /-- `ldr rd, [rn, #off]` -/
  | ldr (d n off : Nat)
  /-- `str rt, [rn, #off]` -/
  | str (t n off : Nat)
  /-- `umull rlo, rhi, rn, rm`: the 64-bit product -/
  | umull (lo hi n m : Nat)
  /-- `umlal rlo, rhi, rn, rm`: adds the product to the 64-bit number `rhi:rlo` -/
  | umlal (lo hi n m : Nat)
  /-- `mla rd, rn, rm, ra`: the low word of `rn * rm + ra` -/
  | mla (d n m a : Nat)
  /-- `bic rd, rn, #imm`: clears bits -/
  | bic (d n imm : Nat)
  /-- `ubfx rd, rn, #lsb, #width`: extracts bits -/
  | ubfx (d n lsb width : Nat)
  /-- `mov rd, rm, lsr #sh` -/
  | movLsr (d m sh : Nat)
  /-- `mov rd, rm, asl #sh` -/
  | movLsl (d m sh : Nat)
  /-- `mov rd, #imm` and `movw rd, #imm` -/
  | movi (d imm : Nat)
  /-- `orr rd, rn, rm, asl #sh` -/
  | orrLsl (d n m sh : Nat)
  /-- `adds rd, rn, rm`: sets the carry flag -/
  | adds (d n m : Nat)
  /-- `adc rd, rn, rm`: with carry; leaves the flag alone -/
  | adc (d n m : Nat)
  /-- `adc rd, rn, #imm` -/
  | adci (d n imm : Nat)
  /-- `add rd, rn, rm` -/
  | add (d n m : Nat)
  /-- `add rd, rn, #imm` -/
  | addi (d n imm : Nat)
  /-- `sub rd, rn, #imm` -/
  | subi (d n imm : Nat)
  /-- `ldmia rn, {..}`: loads registers from consecutive words -/
  | ldmia (n : Nat) (l : List Nat)
  /-- `stmia rn, {..}`: stores registers to consecutive words -/
  | stmia (n : Nat) (l : List Nat)
  /-- `stmfd sp!, {..}`: pushes registers, the lowest at the lowest address -/
  | push (l : List Nat)
  /-- `ldmfd sp!, {..}`: pops registers -/
  | pop (l : List Nat)
deriving DecidableEq, Repr

/-- The state of the machine: registers, carry flag, memory -/
structure St where
  reg : Nat → Nat
  cf : Bool
  mem : Nat → Nat

namespace St

def setReg (s : St) (r v : Nat) : St := { s with reg := Function.update s.reg r v }
def setMem (s : St) (a v : Nat) : St := { s with mem := Function.update s.mem a v }

/-- Loading registers from consecutive words -/
def ldm (s : St) (a : Nat) : List Nat → St
  | [] => s
  | r :: l => (s.setReg r (s.mem a)).ldm (a + 4) l

/-- Storing registers to consecutive words -/
def stm (s : St) (a : Nat) : List Nat → St
  | [] => s
  | r :: l => (s.setMem a (s.reg r)).stm (a + 4) l

end St

/-- One instruction -/
def step (s : St) : Instr → St
  | .ldr d n off => s.setReg d (s.mem (u32 (s.reg n + off)))
  | .str t n off => s.setMem (u32 (s.reg n + off)) (s.reg t)
  | .umull lo hi n m =>
    let t := s.reg n * s.reg m
    (s.setReg lo (u32 t)).setReg hi (t / 2 ^ 32)
  | .umlal lo hi n m =>
    let t := u64 (s.reg lo + 2 ^ 32 * s.reg hi + s.reg n * s.reg m)
    (s.setReg lo (u32 t)).setReg hi (t / 2 ^ 32)
  | .mla d n m a => s.setReg d (u32 (s.reg n * s.reg m + s.reg a))
  | .bic d n imm => s.setReg d (s.reg n &&& (imm ^^^ 0xffffffff))
  | .ubfx d n lsb width => s.setReg d ((s.reg n >>> lsb) % 2 ^ width)
  | .movLsr d m sh => s.setReg d (s.reg m >>> sh)
  | .movLsl d m sh => s.setReg d (u32 (s.reg m <<< sh))
  | .movi d imm => s.setReg d imm
  | .orrLsl d n m sh => s.setReg d (s.reg n ||| u32 (s.reg m <<< sh))
  | .adds d n m =>
    let t := s.reg n + s.reg m
    { s.setReg d (u32 t) with cf := decide (2 ^ 32 ≤ t) }
  | .adc d n m => s.setReg d (u32 (s.reg n + s.reg m + bit s.cf))
  | .adci d n imm => s.setReg d (u32 (s.reg n + imm + bit s.cf))
  | .add d n m => s.setReg d (u32 (s.reg n + s.reg m))
  | .addi d n imm => s.setReg d (u32 (s.reg n + imm))
  | .subi d n imm => s.setReg d (u32 (s.reg n + (2 ^ 32 - imm)))
  | .ldmia n l => s.ldm (s.reg n) l
  | .stmia n l => s.stm (s.reg n) l
  | .push l =>
    let a := u32 (s.reg 13 + (2 ^ 32 - 4 * l.length))
    (s.stm a l).setReg 13 a
  | .pop l => (s.ldm (s.reg 13) l).setReg 13 (u32 (s.reg 13 + 4 * l.length))

/-- A sequence of instructions -/
def run (s : St) (l : List Instr) : St := l.foldl step s

/-- `secp256k1_fe_mul_inner`, asm/field_10x26_arm.s:40-514: result at `r0`, arguments at `r1` and `r2` -/
def mulInner : List Instr := [
   .push [4, 5, 6, 7, 8, 9, 10, 11, 14], .subi 13 13 48, .str 0 13 0,
   -- A - interleaved with B (line 61)
   .ldr 7 1 0, .ldr 8 2 36, .ldr 0 1 4, .umull 5 6 7 8, .ldr 14 2 32, .umull 9 10 0 8, .ldr 7 1 8,
   .umlal 5 6 0 14, .ldr 8 2 28, .umlal 9 10 7 14, .ldr 0 1 12, .umlal 5 6 7 8, .ldr 14 2 24, .umlal 9 10 0 8,
   .ldr 7 1 16, .umlal 5 6 0 14, .ldr 8 2 20, .umlal 9 10 7 14, .ldr 0 1 20, .umlal 5 6 7 8, .ldr 14 2 16,
   .umlal 9 10 0 8, .ldr 7 1 24, .umlal 5 6 0 14, .ldr 8 2 12, .umlal 9 10 7 14, .ldr 0 1 28, .umlal 5 6 7 8,
   .ldr 14 2 8, .umlal 9 10 0 8, .ldr 7 1 32, .umlal 5 6 0 14, .ldr 8 2 4, .umlal 9 10 7 14, .ldr 0 1 36,
   .umlal 5 6 7 8, .ldr 14 2 0, .umlal 9 10 0 8, .ldr 7 1 0, .umlal 5 6 0 14, .bic 0 5 0xfc000000,
   .str 0 13 40, .movLsr 5 5 26, .orrLsl 5 5 6 6, .movLsr 6 6 26,
   -- B (line 110)
   .umull 3 4 7 14, .adds 5 5 9, .adc 6 6 10, .bic 0 5 0xfc000000, .movLsr 5 5 26, .orrLsl 5 5 6 6,
   .movLsr 6 6 26, .movi 14 0x3d10, .umlal 3 4 0 14, .bic 14 3 0xfc000000, .str 14 13 4, .movLsr 3 3 26,
   .orrLsl 3 3 4 6, .movLsr 4 4 26, .movi 14 1024, .umlal 3 4 0 14,
   -- C - interleaved with D (line 130)
   .ldr 7 1 0, .ldr 8 2 8, .ldr 14 2 4, .umull 11 12 7 8, .ldr 0 1 4, .umlal 3 4 7 14, .ldr 8 2 0,
   .umlal 11 12 0 14, .ldr 7 1 8, .umlal 3 4 0 8, .ldr 14 2 36, .umlal 11 12 7 8, .ldr 0 1 12, .umlal 5 6 7 14,
   .ldr 8 2 32, .umull 9 10 0 14, .ldr 7 1 16, .umlal 5 6 0 8, .ldr 14 2 28, .umlal 9 10 7 8, .ldr 0 1 20,
   .umlal 5 6 7 14, .ldr 8 2 24, .umlal 9 10 0 14, .ldr 7 1 24, .umlal 5 6 0 8, .ldr 14 2 20, .umlal 9 10 7 8,
   .ldr 0 1 28, .umlal 5 6 7 14, .ldr 8 2 16, .umlal 9 10 0 14, .ldr 7 1 32, .umlal 5 6 0 8, .ldr 14 2 12,
   .umlal 9 10 7 8, .ldr 0 1 36, .umlal 5 6 7 14, .ldr 8 2 8, .umlal 9 10 0 14, .umlal 5 6 0 8,
   .bic 0 5 0xfc000000, .movLsr 5 5 26, .orrLsl 5 5 6 6, .movLsr 6 6 26, .movi 14 0x3d10, .umlal 3 4 0 14,
   .bic 14 3 0xfc000000, .str 14 13 8, .movLsr 3 3 26, .orrLsl 3 3 4 6, .movLsr 4 4 26, .movi 14 1024,
   .umlal 3 4 0 14,
   -- D (line 188)
   .adds 3 3 11, .adc 4 4 12, .adds 5 5 9, .adc 6 6 10, .bic 0 5 0xfc000000, .movLsr 5 5 26, .orrLsl 5 5 6 6,
   .movLsr 6 6 26, .movi 14 0x3d10, .umlal 3 4 0 14, .bic 14 3 0xfc000000, .str 14 13 12, .movLsr 3 3 26,
   .orrLsl 3 3 4 6, .movLsr 4 4 26, .movi 14 1024, .umlal 3 4 0 14,
   -- E - interleaved with F (line 209)
   .ldr 7 1 0, .ldr 8 2 16, .umull 11 12 7 8, .ldr 8 2 12, .umlal 3 4 7 8, .ldr 7 1 4, .umlal 11 12 7 8,
   .ldr 8 2 8, .umlal 3 4 7 8, .ldr 7 1 8, .umlal 11 12 7 8, .ldr 8 2 4, .umlal 3 4 7 8, .ldr 7 1 12,
   .umlal 11 12 7 8, .ldr 8 2 0, .umlal 3 4 7 8, .ldr 7 1 16, .umlal 11 12 7 8, .ldr 8 2 36, .umlal 5 6 7 8,
   .ldr 7 1 20, .umull 9 10 7 8, .ldr 8 2 32, .umlal 5 6 7 8, .ldr 7 1 24, .umlal 9 10 7 8, .ldr 8 2 28,
   .umlal 5 6 7 8, .ldr 7 1 28, .umlal 9 10 7 8, .ldr 8 2 24, .umlal 5 6 7 8, .ldr 7 1 32, .umlal 9 10 7 8,
   .ldr 8 2 20, .umlal 5 6 7 8, .ldr 7 1 36, .umlal 9 10 7 8, .ldr 8 2 16, .umlal 5 6 7 8, .bic 0 5 0xfc000000,
   .movLsr 5 5 26, .orrLsl 5 5 6 6, .movLsr 6 6 26, .movi 14 0x3d10, .umlal 3 4 0 14, .bic 14 3 0xfc000000,
   .str 14 13 16, .movLsr 3 3 26, .orrLsl 3 3 4 6, .movLsr 4 4 26, .movi 14 1024, .umlal 3 4 0 14,
   -- F (line 267)
   .adds 3 3 11, .adc 4 4 12, .adds 5 5 9, .adc 6 6 10, .bic 0 5 0xfc000000, .movLsr 5 5 26, .orrLsl 5 5 6 6,
   .movLsr 6 6 26, .movi 14 0x3d10, .umlal 3 4 0 14, .bic 14 3 0xfc000000, .str 14 13 20, .movLsr 3 3 26,
   .orrLsl 3 3 4 6, .movLsr 4 4 26, .movi 14 1024, .umlal 3 4 0 14,
   -- G - interleaved with H (line 288)
   .ldr 7 1 0, .ldr 8 2 24, .ldr 14 2 20, .umull 11 12 7 8, .ldr 0 1 4, .umlal 3 4 7 14, .ldr 8 2 16,
   .umlal 11 12 0 14, .ldr 7 1 8, .umlal 3 4 0 8, .ldr 14 2 12, .umlal 11 12 7 8, .ldr 0 1 12, .umlal 3 4 7 14,
   .ldr 8 2 8, .umlal 11 12 0 14, .ldr 7 1 16, .umlal 3 4 0 8, .ldr 14 2 4, .umlal 11 12 7 8, .ldr 0 1 20,
   .umlal 3 4 7 14, .ldr 8 2 0, .umlal 11 12 0 14, .ldr 7 1 24, .umlal 3 4 0 8, .ldr 14 2 36, .umlal 11 12 7 8,
   .ldr 0 1 28, .umlal 5 6 7 14, .ldr 8 2 32, .umull 9 10 0 14, .ldr 7 1 32, .umlal 5 6 0 8, .ldr 14 2 28,
   .umlal 9 10 7 8, .ldr 0 1 36, .umlal 5 6 7 14, .ldr 8 2 24, .umlal 9 10 0 14, .umlal 5 6 0 8,
   .bic 0 5 0xfc000000, .movLsr 5 5 26, .orrLsl 5 5 6 6, .movLsr 6 6 26, .movi 14 0x3d10, .umlal 3 4 0 14,
   .bic 14 3 0xfc000000, .str 14 13 24, .movLsr 3 3 26, .orrLsl 3 3 4 6, .movLsr 4 4 26, .movi 14 1024,
   .umlal 3 4 0 14,
   -- H (line 346)
   .adds 3 3 11, .adc 4 4 12, .adds 5 5 9, .adc 6 6 10, .bic 0 5 0xfc000000, .movLsr 5 5 26, .orrLsl 5 5 6 6,
   .movLsr 6 6 26, .movi 14 0x3d10, .umlal 3 4 0 14, .bic 14 3 0xfc000000, .str 14 13 28, .movLsr 3 3 26,
   .orrLsl 3 3 4 6, .movLsr 4 4 26, .movi 14 1024, .umlal 3 4 0 14,
   -- I - interleaved with J (line 367)
   .ldr 8 2 32, .ldr 7 1 0, .ldr 14 2 28, .umull 11 12 7 8, .ldr 0 1 4, .umlal 3 4 7 14, .ldr 8 2 24,
   .umlal 11 12 0 14, .ldr 7 1 8, .umlal 3 4 0 8, .ldr 14 2 20, .umlal 11 12 7 8, .ldr 0 1 12, .umlal 3 4 7 14,
   .ldr 8 2 16, .umlal 11 12 0 14, .ldr 7 1 16, .umlal 3 4 0 8, .ldr 14 2 12, .umlal 11 12 7 8, .ldr 0 1 20,
   .umlal 3 4 7 14, .ldr 8 2 8, .umlal 11 12 0 14, .ldr 7 1 24, .umlal 3 4 0 8, .ldr 14 2 4, .umlal 11 12 7 8,
   .ldr 0 1 28, .umlal 3 4 7 14, .ldr 8 2 0, .umlal 11 12 0 14, .ldr 7 1 32, .umlal 3 4 0 8, .ldr 14 2 36,
   .umlal 11 12 7 8, .ldr 0 1 36, .umlal 5 6 7 14, .ldr 8 2 32, .umull 9 10 0 14, .umlal 5 6 0 8,
   .bic 0 5 0xfc000000, .movLsr 5 5 26, .orrLsl 5 5 6 6, .movLsr 6 6 26, .movi 14 0x3d10, .umlal 3 4 0 14,
   .bic 14 3 0xfc000000, .str 14 13 32, .movLsr 3 3 26, .orrLsl 3 3 4 6, .movLsr 4 4 26, .movi 14 1024,
   .umlal 3 4 0 14,
   -- J (line 425)
   .adds 3 3 11, .adc 4 4 12, .adds 5 5 9, .adc 6 6 10, .bic 0 5 0xfc000000, .str 0 13 36, .movLsr 5 5 26,
   .orrLsl 5 5 6 6, .movLsr 6 6 26, .movi 14 0x3d10, .umlal 3 4 0 14, .ldr 0 13 0, .addi 1 13 16,
   .ldmia 1 [2, 7, 8, 9, 10, 11, 12], .addi 1 0 12, .stmia 1 [2, 7, 8, 9, 10], .bic 2 3 0xfc000000,
   .str 2 0 32, .movLsr 3 3 26, .orrLsl 3 3 4 6, .movLsr 4 4 26, .movi 14 1024, .umlal 3 4 11 14,
   .movi 14 0x3d10, .umlal 3 4 5 14, .adds 3 3 12, .adci 4 4 0, .addi 1 13 4, .ldmia 1 [7, 8, 9],
   .ubfx 2 3 0 22, .str 2 0 36, .movLsr 3 3 22, .orrLsl 3 3 4 10, .movLsr 4 4 22, .movi 14 0x4000,
   .umlal 3 4 5 14, .movi 14 977, .umull 5 6 3 14, .adds 5 5 7, .mla 6 14 4 6, .adci 6 6 0,
   .bic 2 5 0xfc000000, .str 2 0 0, .movLsr 5 5 26, .orrLsl 5 5 6 6, .movLsr 6 6 26, .movi 14 64,
   .umull 1 2 3 14, .adds 5 5 8, .adci 6 6 0, .adds 5 5 1, .mla 2 14 4 2, .adc 6 6 2, .bic 2 5 0xfc000000,
   .str 2 0 4, .movLsr 5 5 26, .orrLsl 5 5 6 6, .add 5 5 9, .str 5 0 8, .addi 13 13 48,
   .pop [4, 5, 6, 7, 8, 9, 10, 11, 15]]

/-- `secp256k1_fe_sqr_inner`, asm/field_10x26_arm.s:527-913: result at `r0`, argument at `r1` -/
def sqrInner : List Instr := [
   .push [4, 5, 6, 7, 8, 9, 10, 11, 14], .subi 13 13 48, .str 0 13 0,
   -- A interleaved with B (line 545)
   .ldr 0 1 4, .ldr 7 1 0, .movLsl 0 0 1, .ldr 14 1 36, .umull 3 4 7 7, .ldr 8 1 32, .movLsl 7 7 1,
   .umull 5 6 7 14, .ldr 7 1 8, .umull 9 10 0 14, .ldr 14 1 28, .umlal 5 6 0 8, .movLsl 7 7 1, .ldr 0 1 12,
   .umlal 9 10 7 8, .ldr 8 1 24, .umlal 5 6 7 14, .movLsl 0 0 1, .ldr 7 1 16, .umlal 9 10 0 14, .ldr 14 1 20,
   .movLsl 7 7 1, .umlal 5 6 0 8, .umlal 9 10 7 8, .umlal 5 6 7 14, .umlal 9 10 14 14, .bic 0 5 0xfc000000,
   .str 0 13 40, .movLsr 5 5 26, .orrLsl 5 5 6 6, .movLsr 6 6 26,
   -- B (line 579)
   .adds 5 5 9, .adc 6 6 10, .bic 0 5 0xfc000000, .movLsr 5 5 26, .orrLsl 5 5 6 6, .movLsr 6 6 26,
   .movi 14 0x3d10, .umlal 3 4 0 14, .bic 14 3 0xfc000000, .str 14 13 4, .movLsr 3 3 26, .orrLsl 3 3 4 6,
   .movLsr 4 4 26, .movi 14 1024, .umlal 3 4 0 14,
   -- C interleaved with D (line 597)
   .ldr 0 1 0, .ldr 14 1 4, .movLsl 0 0 1, .ldr 8 1 8, .umlal 3 4 0 14, .movLsl 7 8 1, .umull 11 12 14 14,
   .ldr 14 1 36, .umlal 11 12 0 8, .ldr 0 1 12, .ldr 8 1 32, .umlal 5 6 7 14, .movLsl 0 0 1, .ldr 7 1 16,
   .umull 9 10 0 14, .ldr 14 1 28, .umlal 5 6 0 8, .movLsl 7 7 1, .ldr 0 1 20, .umlal 9 10 7 8, .ldr 8 1 24,
   .movLsl 0 0 1, .umlal 5 6 7 14, .umlal 9 10 0 14, .umlal 5 6 0 8, .umlal 9 10 8 8, .bic 0 5 0xfc000000,
   .movLsr 5 5 26, .orrLsl 5 5 6 6, .movLsr 6 6 26, .movi 14 0x3d10, .umlal 3 4 0 14, .bic 14 3 0xfc000000,
   .str 14 13 8, .movLsr 3 3 26, .orrLsl 3 3 4 6, .movLsr 4 4 26, .movi 14 1024, .umlal 3 4 0 14,
   -- D (line 639)
   .adds 3 3 11, .adc 4 4 12, .adds 5 5 9, .adc 6 6 10, .bic 0 5 0xfc000000, .movLsr 5 5 26, .orrLsl 5 5 6 6,
   .movLsr 6 6 26, .movi 14 0x3d10, .umlal 3 4 0 14, .bic 14 3 0xfc000000, .str 14 13 12, .movLsr 3 3 26,
   .orrLsl 3 3 4 6, .movLsr 4 4 26, .movi 14 1024, .umlal 3 4 0 14,
   -- E interleaved with F (line 659)
   .ldr 7 1 0, .ldr 0 1 4, .ldr 14 1 8, .movLsl 7 7 1, .ldr 8 1 12, .ldr 2 1 16, .umlal 3 4 7 8, .movLsl 0 0 1,
   .umull 11 12 7 2, .movLsl 2 2 1, .umlal 11 12 0 8, .ldr 8 1 36, .umlal 3 4 0 14, .ldr 0 1 20,
   .umlal 11 12 14 14, .ldr 14 1 32, .movLsl 0 0 1, .umlal 5 6 2 8, .ldr 7 1 24, .umull 9 10 0 8,
   .movLsl 7 7 1, .ldr 8 1 28, .umlal 5 6 0 14, .umlal 9 10 7 14, .umlal 5 6 7 8, .umlal 9 10 8 8,
   .bic 0 5 0xfc000000, .movLsr 5 5 26, .orrLsl 5 5 6 6, .movLsr 6 6 26, .movi 14 0x3d10, .umlal 3 4 0 14,
   .bic 14 3 0xfc000000, .str 14 13 16, .movLsr 3 3 26, .orrLsl 3 3 4 6, .movLsr 4 4 26, .movi 14 1024,
   .umlal 3 4 0 14,
   -- F (line 701)
   .adds 3 3 11, .adc 4 4 12, .adds 5 5 9, .adc 6 6 10, .bic 0 5 0xfc000000, .movLsr 5 5 26, .orrLsl 5 5 6 6,
   .movLsr 6 6 26, .movi 14 0x3d10, .umlal 3 4 0 14, .bic 14 3 0xfc000000, .str 14 13 20, .movLsr 3 3 26,
   .orrLsl 3 3 4 6, .movLsr 4 4 26, .movi 14 1024, .umlal 3 4 0 14,
   -- G interleaved with H (line 721)
   .ldr 7 1 0, .ldr 0 1 4, .movLsl 7 7 1, .ldr 8 1 20, .ldr 2 1 24, .umlal 3 4 7 8, .ldr 14 1 16,
   .movLsl 0 0 1, .umull 11 12 7 2, .ldr 7 1 8, .umlal 11 12 0 8, .movLsl 7 7 1, .ldr 8 1 12, .umlal 3 4 0 14,
   .movLsl 0 2 1, .umlal 11 12 7 14, .ldr 14 1 36, .umlal 3 4 7 8, .ldr 7 1 28, .umlal 11 12 8 8,
   .movLsl 7 7 1, .ldr 8 1 32, .umlal 5 6 0 14, .umull 9 10 7 14, .umlal 5 6 7 8, .umlal 9 10 8 8,
   .bic 0 5 0xfc000000, .movLsr 5 5 26, .orrLsl 5 5 6 6, .movLsr 6 6 26, .movi 14 0x3d10, .umlal 3 4 0 14,
   .bic 14 3 0xfc000000, .str 14 13 24, .movLsr 3 3 26, .orrLsl 3 3 4 6, .movLsr 4 4 26, .movi 14 1024,
   .umlal 3 4 0 14,
   -- H (line 763)
   .adds 3 3 11, .adc 4 4 12, .adds 5 5 9, .adc 6 6 10, .bic 0 5 0xfc000000, .movLsr 5 5 26, .orrLsl 5 5 6 6,
   .movLsr 6 6 26, .movi 14 0x3d10, .umlal 3 4 0 14, .bic 14 3 0xfc000000, .str 14 13 28, .movLsr 3 3 26,
   .orrLsl 3 3 4 6, .movLsr 4 4 26, .movi 14 1024, .umlal 3 4 0 14,
   -- I interleaved with J (line 783)
   .ldr 7 1 0, .ldr 0 1 4, .movLsl 7 7 1, .ldr 8 1 28, .ldr 2 1 32, .umlal 3 4 7 8, .ldr 14 1 24,
   .movLsl 0 0 1, .umull 11 12 7 2, .ldr 7 1 8, .umlal 11 12 0 8, .ldr 8 1 20, .umlal 3 4 0 14, .ldr 0 1 12,
   .movLsl 7 7 1, .umlal 11 12 7 14, .ldr 14 1 16, .movLsl 0 0 1, .umlal 3 4 7 8, .movLsl 2 2 1,
   .umlal 11 12 0 8, .umlal 3 4 0 14, .umlal 11 12 14 14, .ldr 8 1 36, .umlal 5 6 2 8, .bic 0 5 0xfc000000,
   .movLsr 5 5 26, .orrLsl 5 5 6 6, .movLsr 6 6 26, .movi 14 0x3d10, .umlal 3 4 0 14, .bic 14 3 0xfc000000,
   .str 14 13 32, .movLsr 3 3 26, .orrLsl 3 3 4 6, .movLsr 4 4 26, .movi 14 1024, .umlal 3 4 0 14,
   -- J (line 825)
   .adds 3 3 11, .adc 4 4 12, .umlal 5 6 8 8, .bic 0 5 0xfc000000, .str 0 13 36, .movLsr 5 5 26,
   .orrLsl 5 5 6 6, .movLsr 6 6 26, .movi 14 0x3d10, .umlal 3 4 0 14, .ldr 0 13 0, .addi 1 13 16,
   .ldmia 1 [2, 7, 8, 9, 10, 11, 12], .addi 1 0 12, .stmia 1 [2, 7, 8, 9, 10], .bic 2 3 0xfc000000,
   .str 2 0 32, .movLsr 3 3 26, .orrLsl 3 3 4 6, .movLsr 4 4 26, .movi 14 1024, .umlal 3 4 11 14,
   .movi 14 0x3d10, .umlal 3 4 5 14, .adds 3 3 12, .adci 4 4 0, .addi 1 13 4, .ldmia 1 [7, 8, 9],
   .ubfx 2 3 0 22, .str 2 0 36, .movLsr 3 3 22, .orrLsl 3 3 4 10, .movLsr 4 4 22, .movi 14 0x4000,
   .umlal 3 4 5 14, .movi 14 977, .umull 5 6 3 14, .adds 5 5 7, .mla 6 14 4 6, .adci 6 6 0,
   .bic 2 5 0xfc000000, .str 2 0 0, .movLsr 5 5 26, .orrLsl 5 5 6 6, .movLsr 6 6 26, .movi 14 64,
   .umull 1 2 3 14, .adds 5 5 8, .adci 6 6 0, .adds 5 5 1, .mla 2 14 4 2, .adc 6 6 2, .bic 2 5 0xfc000000,
   .str 2 0 4, .movLsr 5 5 26, .orrLsl 5 5 6 6, .add 5 5 9, .str 5 0 8, .addi 13 13 48,
   .pop [4, 5, 6, 7, 8, 9, 10, 11, 15]]

/-- The ten limbs at an address -/
def fe10At (m : Nat → Nat) (a : Nat) : Fe10 :=
  ⟨m a, m (a + 4), m (a + 8), m (a + 12), m (a + 16), m (a + 20), m (a + 24), m (a + 28), m (a + 32), m (a + 36)⟩

/-- Address in the 84 bytes below the stack pointer: nine saved registers and the frame of 48 bytes -/
def Frame (s : St) (x : Nat) : Prop := s.reg 13 - 84 ≤ x ∧ x < s.reg 13

/-- Address in the array of ten words at `a` -/
def InFe (a x : Nat) : Prop := a ≤ x ∧ x < a + 40

/-- The state at a call: words in registers and memory, an aligned stack with enough room, and the arguments (in
`rs`, field_10x26_impl.h:393-394) aligned arrays outside the frame.  Nothing is assumed about how the arrays overlap
each other. -/
structure Call (s : St) (rs : List Nat) : Prop where
  reg : ∀ r, s.reg r < 2 ^ 32
  mem : ∀ a, s.mem a < 2 ^ 32
  sp : 84 ≤ s.reg 13 ∧ 8 ∣ s.reg 13
  arr : ∀ r ∈ rs, s.reg r + 40 ≤ 2 ^ 32 ∧ 4 ∣ s.reg r
  frame : ∀ r ∈ rs, ∀ x, InFe (s.reg r) x → ¬ Frame s x

/-- What the procedure call standard (AAPCS) asks of a function besides its result: control returns to the caller,
the stack pointer and `r4`-`r11` are as before, and memory outside the result (at `r0`) and below the stack pointer
is as before. -/
structure Returns (s s' : St) : Prop where
  pc : s'.reg 15 = s.reg 14
  sp : s'.reg 13 = s.reg 13
  saved : ∀ r, 4 ≤ r → r ≤ 11 → s'.reg r = s.reg r
  mem : ∀ x, ¬ InFe (s.reg 0) x → ¬ Frame s x → s'.mem x = s.mem x

end Secp.Model.Arm
