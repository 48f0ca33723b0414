import Verif.Proof.Asm.ArmSound
import Verif.Proof.Field10x26Mul

/-!
# The ARM code computes the columns of the C code
-/

namespace Secp.Model.Arm
open Secp.Model.Fe10

/-- The 64-bit sums in the run of `mulInner` -/
def mulD : List S := [
  { prods := [(.a 0, .b 9), (.a 1, .b 8), (.a 2, .b 7), (.a 3, .b 6), (.a 4, .b 5), (.a 5, .b 4),
      (.a 6, .b 3), (.a 7, .b 2), (.a 8, .b 1), (.a 9, .b 0)] },
  { shr := [(0, 26)], prods := [(.a 1, .b 9), (.a 2, .b 8), (.a 3, .b 7), (.a 4, .b 6), (.a 5, .b 5),
      (.a 6, .b 4), (.a 7, .b 3), (.a 8, .b 2), (.a 9, .b 1)] },
  { prods := [(.a 0, .b 0), (.low 1 26, .imm 15632)] },
  { shr := [(1, 26)], prods := [(.a 2, .b 9), (.a 3, .b 8), (.a 4, .b 7), (.a 5, .b 6), (.a 6, .b 5),
      (.a 7, .b 4), (.a 8, .b 3), (.a 9, .b 2)] },
  { shr := [(2, 26)], prods := [(.low 1 26, .imm 1024), (.a 0, .b 1), (.a 1, .b 0), (.low 3 26, .imm 15632)] },
  { shr := [(3, 26)], prods := [(.a 3, .b 9), (.a 4, .b 8), (.a 5, .b 7), (.a 6, .b 6), (.a 7, .b 5),
      (.a 8, .b 4), (.a 9, .b 3)] },
  { shr := [(4, 26)], prods := [(.low 3 26, .imm 1024), (.a 0, .b 2), (.a 1, .b 1), (.a 2, .b 0),
      (.low 5 26, .imm 15632)] },
  { shr := [(5, 26)], prods := [(.a 4, .b 9), (.a 5, .b 8), (.a 6, .b 7), (.a 7, .b 6), (.a 8, .b 5),
      (.a 9, .b 4)] },
  { shr := [(6, 26)], prods := [(.low 5 26, .imm 1024), (.a 0, .b 3), (.a 1, .b 2), (.a 2, .b 1),
      (.a 3, .b 0), (.low 7 26, .imm 15632)] },
  { shr := [(7, 26)], prods := [(.a 5, .b 9), (.a 6, .b 8), (.a 7, .b 7), (.a 8, .b 6), (.a 9, .b 5)] },
  { shr := [(8, 26)], prods := [(.low 7 26, .imm 1024), (.a 0, .b 4), (.a 1, .b 3), (.a 2, .b 2),
      (.a 3, .b 1), (.a 4, .b 0), (.low 9 26, .imm 15632)] },
  { shr := [(9, 26)], prods := [(.a 6, .b 9), (.a 7, .b 8), (.a 8, .b 7), (.a 9, .b 6)] },
  { shr := [(10, 26)], prods := [(.low 9 26, .imm 1024), (.a 0, .b 5), (.a 1, .b 4), (.a 2, .b 3),
      (.a 3, .b 2), (.a 4, .b 1), (.a 5, .b 0), (.low 11 26, .imm 15632)] },
  { shr := [(11, 26)], prods := [(.a 7, .b 9), (.a 8, .b 8), (.a 9, .b 7)] },
  { shr := [(12, 26)], prods := [(.low 11 26, .imm 1024), (.a 0, .b 6), (.a 1, .b 5), (.a 2, .b 4),
      (.a 3, .b 3), (.a 4, .b 2), (.a 5, .b 1), (.a 6, .b 0), (.low 13 26, .imm 15632)] },
  { shr := [(13, 26)], prods := [(.a 8, .b 9), (.a 9, .b 8)] },
  { shr := [(14, 26)], prods := [(.low 13 26, .imm 1024), (.a 0, .b 7), (.a 1, .b 6), (.a 2, .b 5),
      (.a 3, .b 4), (.a 4, .b 3), (.a 5, .b 2), (.a 6, .b 1), (.a 7, .b 0), (.low 15 26, .imm 15632)] },
  { shr := [(15, 26)], prods := [(.a 9, .b 9)] },
  { shr := [(16, 26)], prods := [(.low 15 26, .imm 1024), (.a 0, .b 8), (.a 1, .b 7), (.a 2, .b 6),
      (.a 3, .b 5), (.a 4, .b 4), (.a 5, .b 3), (.a 6, .b 2), (.a 7, .b 1), (.a 8, .b 0), (.low 17 26, .imm 15632)] },
  { shr := [(17, 26)] },
  { shr := [(18, 26)], prods := [(.low 17 26, .imm 1024), (.lo 19, .imm 15632)], words := [.low 0 26] },
  { shr := [(20, 22)], prods := [(.lo 19, .imm 16384)] },
  { prods := [(.lo 21, .imm 977)], words := [.low 2 26] },
  { prods := [(.lo 21, .imm 977)], words := [.low 2 26], hp := [(.imm 977, .hi 21)] },
  { shr := [(23, 26)], prods := [(.lo 21, .imm 64)], words := [.low 4 26] },
  { shr := [(23, 26)], prods := [(.lo 21, .imm 64)], words := [.low 4 26], hp := [(.imm 64, .hi 21)] }]

/-- The 64-bit sums in the run of `sqrInner` -/
def sqrD : List S := [
  { prods := [(.a2 0, .a 9), (.a2 1, .a 8), (.a2 2, .a 7), (.a2 3, .a 6), (.a2 4, .a 5)] },
  { shr := [(0, 26)], prods := [(.a2 1, .a 9), (.a2 2, .a 8), (.a2 3, .a 7), (.a2 4, .a 6), (.a 5, .a 5)] },
  { prods := [(.a 0, .a 0), (.low 1 26, .imm 15632)] },
  { shr := [(1, 26)], prods := [(.a2 2, .a 9), (.a2 3, .a 8), (.a2 4, .a 7), (.a2 5, .a 6)] },
  { shr := [(2, 26)], prods := [(.low 1 26, .imm 1024), (.a2 0, .a 1), (.low 3 26, .imm 15632)] },
  { shr := [(3, 26)], prods := [(.a2 3, .a 9), (.a2 4, .a 8), (.a2 5, .a 7), (.a 6, .a 6)] },
  { shr := [(4, 26)], prods := [(.low 3 26, .imm 1024), (.a 1, .a 1), (.a2 0, .a 2),
      (.low 5 26, .imm 15632)] },
  { shr := [(5, 26)], prods := [(.a2 4, .a 9), (.a2 5, .a 8), (.a2 6, .a 7)] },
  { shr := [(6, 26)], prods := [(.low 5 26, .imm 1024), (.a2 0, .a 3), (.a2 1, .a 2),
      (.low 7 26, .imm 15632)] },
  { shr := [(7, 26)], prods := [(.a2 5, .a 9), (.a2 6, .a 8), (.a 7, .a 7)] },
  { shr := [(8, 26)], prods := [(.low 7 26, .imm 1024), (.a2 0, .a 4), (.a2 1, .a 3), (.a 2, .a 2),
      (.low 9 26, .imm 15632)] },
  { shr := [(9, 26)], prods := [(.a2 6, .a 9), (.a2 7, .a 8)] },
  { shr := [(10, 26)], prods := [(.low 9 26, .imm 1024), (.a2 0, .a 5), (.a2 1, .a 4), (.a2 2, .a 3),
      (.low 11 26, .imm 15632)] },
  { shr := [(11, 26)], prods := [(.a2 7, .a 9), (.a 8, .a 8)] },
  { shr := [(12, 26)], prods := [(.low 11 26, .imm 1024), (.a2 0, .a 6), (.a2 1, .a 5), (.a2 2, .a 4),
      (.a 3, .a 3), (.low 13 26, .imm 15632)] },
  { shr := [(13, 26)], prods := [(.a2 8, .a 9)] },
  { shr := [(14, 26)], prods := [(.low 13 26, .imm 1024), (.a2 0, .a 7), (.a2 1, .a 6), (.a2 2, .a 5),
      (.a2 3, .a 4), (.low 15 26, .imm 15632)] },
  { shr := [(15, 26)], prods := [(.a 9, .a 9)] },
  { shr := [(16, 26)], prods := [(.low 15 26, .imm 1024), (.a2 0, .a 8), (.a2 1, .a 7), (.a2 2, .a 6),
      (.a2 3, .a 5), (.a 4, .a 4), (.low 17 26, .imm 15632)] },
  { shr := [(17, 26)] },
  { shr := [(18, 26)], prods := [(.low 17 26, .imm 1024), (.lo 19, .imm 15632)], words := [.low 0 26] },
  { shr := [(20, 22)], prods := [(.lo 19, .imm 16384)] },
  { prods := [(.lo 21, .imm 977)], words := [.low 2 26] },
  { prods := [(.lo 21, .imm 977)], words := [.low 2 26], hp := [(.imm 977, .hi 21)] },
  { shr := [(23, 26)], prods := [(.lo 21, .imm 64)], words := [.low 4 26] },
  { shr := [(23, 26)], prods := [(.lo 21, .imm 64)], words := [.low 4 26], hp := [(.imm 64, .hi 21)] }]

/-- The state at the call -/
def symInit (two : W) : Sym where
  regs := [.ptr .r 0, .ptr .a 0, two, .init 3, .init 4, .init 5, .init 6, .init 7, .init 8, .init 9, .init 10,
    .init 11, .init 12, .ptr .stk 84, .init 14, .init 15]
  cf := none
  stk := []
  out := []

/-- The registers at the end -/
def finRegs : List W := [.ptr .r 0, .lo { prods := [(.lo 21, .imm 64)] }, .f (.low 24 26), .lo { shr := [(20, 22)], prods := [(.lo 19, .imm 16384)] }, 
  .init 4, .init 5, .init 6, .init 7, .init 8, .init 9, .init 10, .init 11, .f (.low 0 26), .ptr .stk 84, .f (.imm 64), .init 14]

/-- The result -/
def finOut : List (Option W) := [some (.f (.low 22 26)), some (.f (.low 24 26)), some (.lo { shr := [(25, 26)], words := [.low 6 26] }), 
  some (.f (.low 8 26)), some (.f (.low 10 26)), some (.f (.low 12 26)), some (.f (.low 14 26)), some (.f (.low 16 26)), some (.f (.low 18 26)), some (.f (.low 20 22))]

def Sym.fin (st : Sym) : List W × List (Option W) :=
  (st.regs, [0, 4, 8, 12, 16, 20, 24, 28, 32, 36].map fun o => st.out.lookup o)

set_option maxRecDepth 10000 in
theorem mul_sym : (Sym.run mulD mulInner (symInit (.ptr .b 0))).map Sym.fin = some (finRegs, finOut) := by
  decide +kernel

set_option maxRecDepth 10000 in
theorem sqr_sym : (Sym.run sqrD sqrInner (symInit (.init 2))).map Sym.fin = some (finRegs, finOut) := by
  decide +kernel

/-- The high accumulator after the columns -/
def colD (q : ℕ → ℕ) : ℕ → ℕ
  | 0 => u64 (q 9)
  | k + 1 => u64 (colD q k >>> 26 + q (10 + k))

/-- The low accumulator before the limb is taken from it -/
def colC (q : ℕ → ℕ) : ℕ → ℕ
  | 0 => u64 (q 0 + colD q 1 % 2 ^ 26 * 0x3D10)
  | k + 1 => u64 (colC q k >>> 26 + colD q (k + 1) % 2 ^ 26 * 0x400 + q (k + 1) + colD q (k + 2) % 2 ^ 26 * 0x3D10)

def endD (q : ℕ → ℕ) : ℕ := colD q 9 >>> 26
def endX (q : ℕ → ℕ) : ℕ :=
  u64 (colC q 8 >>> 26 + colD q 9 % 2 ^ 26 * 0x400 + endD q % 2 ^ 32 * 0x3D10 + colD q 0 % 2 ^ 26)
def endY (q : ℕ → ℕ) : ℕ := u64 (endX q >>> 22 + endD q % 2 ^ 32 * 0x4000)
def endZ (q : ℕ → ℕ) (hi : ℕ) : ℕ := u64 (endY q % 2 ^ 32 * 0x3D1 + colC q 0 % 2 ^ 26 + 2 ^ 32 * (0x3D1 * hi))
def endW (q : ℕ → ℕ) (hi : ℕ) : ℕ :=
  u64 (endZ q (endY q / 2 ^ 32) >>> 26 + endY q % 2 ^ 32 * 0x40 + colC q 1 % 2 ^ 26 + 2 ^ 32 * (0x40 * hi))

/-- The values of the sums -/
def colV (q : ℕ → ℕ) (k : ℕ) : ℕ :=
  [colD q 0, colD q 1, colC q 0, colD q 2, colC q 1, colD q 3, colC q 2, colD q 4, colC q 3, colD q 5, colC q 4,
    colD q 6, colC q 5, colD q 7, colC q 6, colD q 8, colC q 7, colD q 9, colC q 8, endD q, endX q, endY q,
    endZ q 0, endZ q (endY q / 2 ^ 32), endW q 0, endW q (endY q / 2 ^ 32)].getD k 0

theorem mulCol_eq (c d pc pd : ℕ) : mulCol c d pc pd =
    (u64 (c + pc + u64 (d + pd) % 2 ^ 26 * 0x3D10) % 2 ^ 26,
      u64 (u64 (c + pc + u64 (d + pd) % 2 ^ 26 * 0x3D10) >>> 26 + u64 (d + pd) % 2 ^ 26 * 0x400),
      u64 (d + pd) >>> 26) := by
  have e : ∀ x y, u64 (u64 x + y) = u64 (x + y) := fun x y => by unfold u64; rw [Nat.mod_add_mod]
  unfold mulCol
  simp only [land_m26, e]

theorem u64_add (x y : ℕ) : u64 (u64 x + y) = u64 (x + y) := by unfold u64; rw [Nat.mod_add_mod]

theorem mulCol_0 (q : ℕ → ℕ) : mulCol 0 (u64 (q 9) >>> 26) (q 0) (q 10) =
    (colC q 0 % 2 ^ 26, u64 (colC q 0 >>> 26 + colD q 1 % 2 ^ 26 * 0x400), colD q 1 >>> 26) := by
  rw [mulCol_eq, Nat.zero_add]
  rfl

theorem mulCol_succ (q : ℕ → ℕ) (k : ℕ) :
    mulCol (u64 (colC q k >>> 26 + colD q (k + 1) % 2 ^ 26 * 0x400)) (colD q (k + 1) >>> 26) (q (k + 1)) (q (10 + (k + 1))) =
      (colC q (k + 1) % 2 ^ 26, u64 (colC q (k + 1) >>> 26 + colD q (k + 2) % 2 ^ 26 * 0x400), colD q (k + 2) >>> 26) := by
  rw [mulCol_eq, Nat.add_assoc (u64 _), u64_add, ← Nat.add_assoc]
  rfl

theorem mulCols_eq (q : ℕ → ℕ) (h : endD q < 2 ^ 32) : mulCols q =
    ⟨endZ q 0 % 2 ^ 26, endW q 0 % 2 ^ 26, u32 (u64 (endW q (endY q / 2 ^ 32) >>> 26 + colC q 2 % 2 ^ 26)),
      colC q 3 % 2 ^ 26, colC q 4 % 2 ^ 26, colC q 5 % 2 ^ 26, colC q 6 % 2 ^ 26, colC q 7 % 2 ^ 26,
      colC q 8 % 2 ^ 26, endX q % 2 ^ 22⟩ := by
  have s2 : ∀ y, y &&& (m26 >>> 4) = y % 2 ^ 22 := land_m22
  have hd : endD q % 2 ^ 32 = endD q := Nat.mod_eq_of_lt h
  have eX : u64 (u64 (colC q 8 >>> 26 + colD q 9 % 2 ^ 26 * 0x400) + endD q * 0x3D10 + colD q 0 % 2 ^ 26) = endX q := by
    rw [Nat.add_assoc (u64 _), u64_add, endX, hd, ← Nat.add_assoc]
  have eY : u64 (endX q >>> 22 + endD q * (0x400 <<< 4)) = endY q := by
    rw [endY, hd]; rfl
  have eZ : u64 (endY q * (0x3D10 >>> 4) + colC q 0 % 2 ^ 26) = endZ q (endY q / 2 ^ 32) := by
    rw [endZ, show 0x3D10 >>> 4 = 0x3D1 from rfl]
    refine congrArg u64 ?_
    generalize endY q = y
    generalize colC q 0 % 2 ^ 26 = t
    omega
  have eW : u64 (endZ q (endY q / 2 ^ 32) >>> 26 + endY q * (0x400 >>> 4) + colC q 1 % 2 ^ 26) = endW q (endY q / 2 ^ 32) := by
    rw [endW, show 0x400 >>> 4 = 0x40 from rfl]
    refine congrArg u64 ?_
    generalize endZ q (endY q / 2 ^ 32) >>> 26 = z
    generalize endY q = y
    generalize colC q 1 % 2 ^ 26 = t
    omega
  have lZ : endZ q (endY q / 2 ^ 32) % 2 ^ 26 = endZ q 0 % 2 ^ 26 := by
    unfold endZ u64
    generalize colC q 0 % 2 ^ 26 = t
    clear * -
    generalize endY q = y
    omega
  have lW : endW q (endY q / 2 ^ 32) % 2 ^ 26 = endW q 0 % 2 ^ 26 := by
    unfold endW u64
    generalize endZ q (endY q / 2 ^ 32) >>> 26 = z
    generalize colC q 1 % 2 ^ 26 = t
    clear * -
    generalize endY q = y
    omega
  unfold mulCols
  simp only [mulCol_0, mulCol_succ q 0, mulCol_succ q 1, mulCol_succ q 2, mulCol_succ q 3, mulCol_succ q 4,
    mulCol_succ q 5, mulCol_succ q 6, mulCol_succ q 7]
  have e9 : colD q 9 >>> 26 = endD q := rfl
  have e0 : u64 (q 9) &&& m26 = colD q 0 % 2 ^ 26 := land_m26 _
  unfold mulEnd
  simp only [e9, e0, eX, eY, eZ, eW, land_m26, s2, lZ, lW]

theorem endD_lt {q : ℕ → ℕ} (h : q 18 ≤ 2 ^ 52) : endD q < 2 ^ 32 := by
  have h8 : colD q 8 < 2 ^ 64 := Nat.mod_lt _ (by norm_num)
  have e : endD q = u64 (colD q 8 >>> 26 + q 18) >>> 26 := rfl
  rw [e, u64, Nat.shiftRight_eq_div_pow, Nat.shiftRight_eq_div_pow]
  generalize colD q 8 = d at *
  generalize q 18 = x at *
  omega

theorem f_low (E : Env) (k m : ℕ) (hm : m ≤ 32) : E.f (.low k m) = E.V k % 2 ^ m :=
  Nat.mod_eq_of_lt (lt_of_lt_of_le (Nat.mod_lt _ (by positivity)) (Nat.pow_le_pow_right (by norm_num) hm))

theorem endD_lt64 (q : ℕ → ℕ) : endD q < 2 ^ 64 :=
  lt_of_le_of_lt (Nat.shiftRight_le _ _) (Nat.mod_lt _ (by norm_num))

theorem endY_hi (q : ℕ → ℕ) : endY q / 2 ^ 32 % 2 ^ 32 = endY q / 2 ^ 32 := by
  have : endY q < 2 ^ 64 := Nat.mod_lt _ (by norm_num)
  generalize endY q = y at *
  omega

theorem imm_val (E : Env) (v : ℕ) (h : v < 2 ^ 32) : E.f (.imm v) = v := Nat.mod_eq_of_lt h

theorem colV_hi (q : ℕ → ℕ) : colV q 21 / 2 ^ 32 % 2 ^ 32 = colV q 21 / 2 ^ 32 := endY_hi q

/-- The sums of `mulInner` have the values of the columns. -/
theorem mulD_V {s : St} {q : ℕ → ℕ} (hq : q = mulProds (fe10At s.mem (s.reg 1)) (fe10At s.mem (s.reg 2))) (k : ℕ) (x : S)
    (h : mulD[k]? = some x) : colV q k = Env.sum ⟨s, s.reg 1, s.reg 2, colV q⟩ x := by
  have hk : k < 26 := by
    by_contra hk
    rw [List.getElem?_eq_none (show mulD.length ≤ k by simp only [mulD, List.length_cons, List.length_nil]; omega)] at h
    simp at h
  have q0 : q 0 = s.mem (s.reg 1) * s.mem (s.reg 2) := by
    rw [hq]; rfl
  have q1 : q 1 = s.mem (s.reg 1) * s.mem (s.reg 2 + 4) + s.mem (s.reg 1 + 4) * s.mem (s.reg 2) := by
    rw [hq]; rfl
  have q2 : q 2 = s.mem (s.reg 1) * s.mem (s.reg 2 + 8) + s.mem (s.reg 1 + 4) * s.mem (s.reg 2 + 4) + s.mem (s.reg 1 + 8) * s.mem (s.reg 2) := by
    rw [hq]; rfl
  have q3 : q 3 = s.mem (s.reg 1) * s.mem (s.reg 2 + 12) + s.mem (s.reg 1 + 4) * s.mem (s.reg 2 + 8) + s.mem (s.reg 1 + 8) * s.mem (s.reg 2 + 4) + s.mem (s.reg 1 + 12) * s.mem (s.reg 2) := by
    rw [hq]; rfl
  have q4 : q 4 = s.mem (s.reg 1) * s.mem (s.reg 2 + 16) + s.mem (s.reg 1 + 4) * s.mem (s.reg 2 + 12) + s.mem (s.reg 1 + 8) * s.mem (s.reg 2 + 8) + s.mem (s.reg 1 + 12) * s.mem (s.reg 2 + 4) + s.mem (s.reg 1 + 16) * s.mem (s.reg 2) := by
    rw [hq]; rfl
  have q5 : q 5 = s.mem (s.reg 1) * s.mem (s.reg 2 + 20) + s.mem (s.reg 1 + 4) * s.mem (s.reg 2 + 16) + s.mem (s.reg 1 + 8) * s.mem (s.reg 2 + 12) + s.mem (s.reg 1 + 12) * s.mem (s.reg 2 + 8) + s.mem (s.reg 1 + 16) * s.mem (s.reg 2 + 4) + s.mem (s.reg 1 + 20) * s.mem (s.reg 2) := by
    rw [hq]; rfl
  have q6 : q 6 = s.mem (s.reg 1) * s.mem (s.reg 2 + 24) + s.mem (s.reg 1 + 4) * s.mem (s.reg 2 + 20) + s.mem (s.reg 1 + 8) * s.mem (s.reg 2 + 16) + s.mem (s.reg 1 + 12) * s.mem (s.reg 2 + 12) + s.mem (s.reg 1 + 16) * s.mem (s.reg 2 + 8) + s.mem (s.reg 1 + 20) * s.mem (s.reg 2 + 4) + s.mem (s.reg 1 + 24) * s.mem (s.reg 2) := by
    rw [hq]; rfl
  have q7 : q 7 = s.mem (s.reg 1) * s.mem (s.reg 2 + 28) + s.mem (s.reg 1 + 4) * s.mem (s.reg 2 + 24) + s.mem (s.reg 1 + 8) * s.mem (s.reg 2 + 20) + s.mem (s.reg 1 + 12) * s.mem (s.reg 2 + 16) + s.mem (s.reg 1 + 16) * s.mem (s.reg 2 + 12) + s.mem (s.reg 1 + 20) * s.mem (s.reg 2 + 8) + s.mem (s.reg 1 + 24) * s.mem (s.reg 2 + 4) + s.mem (s.reg 1 + 28) * s.mem (s.reg 2) := by
    rw [hq]; rfl
  have q8 : q 8 = s.mem (s.reg 1) * s.mem (s.reg 2 + 32) + s.mem (s.reg 1 + 4) * s.mem (s.reg 2 + 28) + s.mem (s.reg 1 + 8) * s.mem (s.reg 2 + 24) + s.mem (s.reg 1 + 12) * s.mem (s.reg 2 + 20) + s.mem (s.reg 1 + 16) * s.mem (s.reg 2 + 16) + s.mem (s.reg 1 + 20) * s.mem (s.reg 2 + 12) + s.mem (s.reg 1 + 24) * s.mem (s.reg 2 + 8) + s.mem (s.reg 1 + 28) * s.mem (s.reg 2 + 4) + s.mem (s.reg 1 + 32) * s.mem (s.reg 2) := by
    rw [hq]; rfl
  have q9 : q 9 = s.mem (s.reg 1) * s.mem (s.reg 2 + 36) + s.mem (s.reg 1 + 4) * s.mem (s.reg 2 + 32) + s.mem (s.reg 1 + 8) * s.mem (s.reg 2 + 28) + s.mem (s.reg 1 + 12) * s.mem (s.reg 2 + 24) + s.mem (s.reg 1 + 16) * s.mem (s.reg 2 + 20) + s.mem (s.reg 1 + 20) * s.mem (s.reg 2 + 16) + s.mem (s.reg 1 + 24) * s.mem (s.reg 2 + 12) + s.mem (s.reg 1 + 28) * s.mem (s.reg 2 + 8) + s.mem (s.reg 1 + 32) * s.mem (s.reg 2 + 4) + s.mem (s.reg 1 + 36) * s.mem (s.reg 2) := by
    rw [hq]; rfl
  have q10 : q 10 = s.mem (s.reg 1 + 4) * s.mem (s.reg 2 + 36) + s.mem (s.reg 1 + 8) * s.mem (s.reg 2 + 32) + s.mem (s.reg 1 + 12) * s.mem (s.reg 2 + 28) + s.mem (s.reg 1 + 16) * s.mem (s.reg 2 + 24) + s.mem (s.reg 1 + 20) * s.mem (s.reg 2 + 20) + s.mem (s.reg 1 + 24) * s.mem (s.reg 2 + 16) + s.mem (s.reg 1 + 28) * s.mem (s.reg 2 + 12) + s.mem (s.reg 1 + 32) * s.mem (s.reg 2 + 8) + s.mem (s.reg 1 + 36) * s.mem (s.reg 2 + 4) := by
    rw [hq]; rfl
  have q11 : q 11 = s.mem (s.reg 1 + 8) * s.mem (s.reg 2 + 36) + s.mem (s.reg 1 + 12) * s.mem (s.reg 2 + 32) + s.mem (s.reg 1 + 16) * s.mem (s.reg 2 + 28) + s.mem (s.reg 1 + 20) * s.mem (s.reg 2 + 24) + s.mem (s.reg 1 + 24) * s.mem (s.reg 2 + 20) + s.mem (s.reg 1 + 28) * s.mem (s.reg 2 + 16) + s.mem (s.reg 1 + 32) * s.mem (s.reg 2 + 12) + s.mem (s.reg 1 + 36) * s.mem (s.reg 2 + 8) := by
    rw [hq]; rfl
  have q12 : q 12 = s.mem (s.reg 1 + 12) * s.mem (s.reg 2 + 36) + s.mem (s.reg 1 + 16) * s.mem (s.reg 2 + 32) + s.mem (s.reg 1 + 20) * s.mem (s.reg 2 + 28) + s.mem (s.reg 1 + 24) * s.mem (s.reg 2 + 24) + s.mem (s.reg 1 + 28) * s.mem (s.reg 2 + 20) + s.mem (s.reg 1 + 32) * s.mem (s.reg 2 + 16) + s.mem (s.reg 1 + 36) * s.mem (s.reg 2 + 12) := by
    rw [hq]; rfl
  have q13 : q 13 = s.mem (s.reg 1 + 16) * s.mem (s.reg 2 + 36) + s.mem (s.reg 1 + 20) * s.mem (s.reg 2 + 32) + s.mem (s.reg 1 + 24) * s.mem (s.reg 2 + 28) + s.mem (s.reg 1 + 28) * s.mem (s.reg 2 + 24) + s.mem (s.reg 1 + 32) * s.mem (s.reg 2 + 20) + s.mem (s.reg 1 + 36) * s.mem (s.reg 2 + 16) := by
    rw [hq]; rfl
  have q14 : q 14 = s.mem (s.reg 1 + 20) * s.mem (s.reg 2 + 36) + s.mem (s.reg 1 + 24) * s.mem (s.reg 2 + 32) + s.mem (s.reg 1 + 28) * s.mem (s.reg 2 + 28) + s.mem (s.reg 1 + 32) * s.mem (s.reg 2 + 24) + s.mem (s.reg 1 + 36) * s.mem (s.reg 2 + 20) := by
    rw [hq]; rfl
  have q15 : q 15 = s.mem (s.reg 1 + 24) * s.mem (s.reg 2 + 36) + s.mem (s.reg 1 + 28) * s.mem (s.reg 2 + 32) + s.mem (s.reg 1 + 32) * s.mem (s.reg 2 + 28) + s.mem (s.reg 1 + 36) * s.mem (s.reg 2 + 24) := by
    rw [hq]; rfl
  have q16 : q 16 = s.mem (s.reg 1 + 28) * s.mem (s.reg 2 + 36) + s.mem (s.reg 1 + 32) * s.mem (s.reg 2 + 32) + s.mem (s.reg 1 + 36) * s.mem (s.reg 2 + 28) := by
    rw [hq]; rfl
  have q17 : q 17 = s.mem (s.reg 1 + 32) * s.mem (s.reg 2 + 36) + s.mem (s.reg 1 + 36) * s.mem (s.reg 2 + 32) := by
    rw [hq]; rfl
  have q18 : q 18 = s.mem (s.reg 1 + 36) * s.mem (s.reg 2 + 36) := by
    rw [hq]; rfl
  clear hq
  interval_cases k
  · simp only [mulD, List.getElem?_cons_zero, List.getElem?_cons_succ, Option.some.injEq] at h
    subst h
    rw [show colV q 0 = u64 (q 9) from rfl, u64, Env.sum]
    simp only [Env.prods, Env.shrs, Env.words, f_low _ _ 26 (by norm_num), imm_val _ _ (show 0x3D10 < 2 ^ 32 by norm_num),
      imm_val _ _ (show 0x400 < 2 ^ 32 by norm_num), imm_val _ _ (show 0x4000 < 2 ^ 32 by norm_num),
      imm_val _ _ (show 0x3D1 < 2 ^ 32 by norm_num), imm_val _ _ (show 0x40 < 2 ^ 32 by norm_num)]
    simp only [Env.f, Nat.reduceMul, Nat.mul_zero, Nat.add_zero, colV_hi, q9]
    all_goals refine congrArg (· % 2 ^ 64) ?_
    all_goals ring
  · simp only [mulD, List.getElem?_cons_zero, List.getElem?_cons_succ, Option.some.injEq] at h
    subst h
    rw [show colV q 1 = u64 (colV q 0 >>> 26 + q 10) from rfl, u64, Env.sum]
    simp only [Env.prods, Env.shrs, Env.words, f_low _ _ 26 (by norm_num), imm_val _ _ (show 0x3D10 < 2 ^ 32 by norm_num),
      imm_val _ _ (show 0x400 < 2 ^ 32 by norm_num), imm_val _ _ (show 0x4000 < 2 ^ 32 by norm_num),
      imm_val _ _ (show 0x3D1 < 2 ^ 32 by norm_num), imm_val _ _ (show 0x40 < 2 ^ 32 by norm_num)]
    simp only [Env.f, Nat.reduceMul, Nat.mul_zero, Nat.add_zero, colV_hi, q0, q10]
    all_goals refine congrArg (· % 2 ^ 64) ?_
    all_goals ring
  · simp only [mulD, List.getElem?_cons_zero, List.getElem?_cons_succ, Option.some.injEq] at h
    subst h
    rw [show colV q 2 = u64 (q 0 + colV q 1 % 2 ^ 26 * 0x3D10) from rfl, u64, Env.sum]
    simp only [Env.prods, Env.shrs, Env.words, f_low _ _ 26 (by norm_num), imm_val _ _ (show 0x3D10 < 2 ^ 32 by norm_num),
      imm_val _ _ (show 0x400 < 2 ^ 32 by norm_num), imm_val _ _ (show 0x4000 < 2 ^ 32 by norm_num),
      imm_val _ _ (show 0x3D1 < 2 ^ 32 by norm_num), imm_val _ _ (show 0x40 < 2 ^ 32 by norm_num)]
    simp only [Env.f, Nat.reduceMul, Nat.mul_zero, Nat.add_zero, colV_hi, q0, q1]
    all_goals refine congrArg (· % 2 ^ 64) ?_
    all_goals ring
  · simp only [mulD, List.getElem?_cons_zero, List.getElem?_cons_succ, Option.some.injEq] at h
    subst h
    rw [show colV q 3 = u64 (colV q 1 >>> 26 + q 11) from rfl, u64, Env.sum]
    simp only [Env.prods, Env.shrs, Env.words, f_low _ _ 26 (by norm_num), imm_val _ _ (show 0x3D10 < 2 ^ 32 by norm_num),
      imm_val _ _ (show 0x400 < 2 ^ 32 by norm_num), imm_val _ _ (show 0x4000 < 2 ^ 32 by norm_num),
      imm_val _ _ (show 0x3D1 < 2 ^ 32 by norm_num), imm_val _ _ (show 0x40 < 2 ^ 32 by norm_num)]
    simp only [Env.f, Nat.reduceMul, Nat.mul_zero, Nat.add_zero, colV_hi, q1, q11]
    all_goals refine congrArg (· % 2 ^ 64) ?_
    all_goals ring
  · simp only [mulD, List.getElem?_cons_zero, List.getElem?_cons_succ, Option.some.injEq] at h
    subst h
    rw [show colV q 4 = u64 (colV q 2 >>> 26 + colV q 1 % 2 ^ 26 * 0x400 + q 1 + colV q 3 % 2 ^ 26 * 0x3D10) from rfl, u64, Env.sum]
    simp only [Env.prods, Env.shrs, Env.words, f_low _ _ 26 (by norm_num), imm_val _ _ (show 0x3D10 < 2 ^ 32 by norm_num),
      imm_val _ _ (show 0x400 < 2 ^ 32 by norm_num), imm_val _ _ (show 0x4000 < 2 ^ 32 by norm_num),
      imm_val _ _ (show 0x3D1 < 2 ^ 32 by norm_num), imm_val _ _ (show 0x40 < 2 ^ 32 by norm_num)]
    simp only [Env.f, Nat.reduceMul, Nat.mul_zero, Nat.add_zero, colV_hi, q1, q2, q3]
    all_goals refine congrArg (· % 2 ^ 64) ?_
    all_goals ring
  · simp only [mulD, List.getElem?_cons_zero, List.getElem?_cons_succ, Option.some.injEq] at h
    subst h
    rw [show colV q 5 = u64 (colV q 3 >>> 26 + q 12) from rfl, u64, Env.sum]
    simp only [Env.prods, Env.shrs, Env.words, f_low _ _ 26 (by norm_num), imm_val _ _ (show 0x3D10 < 2 ^ 32 by norm_num),
      imm_val _ _ (show 0x400 < 2 ^ 32 by norm_num), imm_val _ _ (show 0x4000 < 2 ^ 32 by norm_num),
      imm_val _ _ (show 0x3D1 < 2 ^ 32 by norm_num), imm_val _ _ (show 0x40 < 2 ^ 32 by norm_num)]
    simp only [Env.f, Nat.reduceMul, Nat.mul_zero, Nat.add_zero, colV_hi, q3, q12]
    all_goals refine congrArg (· % 2 ^ 64) ?_
    all_goals ring
  · simp only [mulD, List.getElem?_cons_zero, List.getElem?_cons_succ, Option.some.injEq] at h
    subst h
    rw [show colV q 6 = u64 (colV q 4 >>> 26 + colV q 3 % 2 ^ 26 * 0x400 + q 2 + colV q 5 % 2 ^ 26 * 0x3D10) from rfl, u64, Env.sum]
    simp only [Env.prods, Env.shrs, Env.words, f_low _ _ 26 (by norm_num), imm_val _ _ (show 0x3D10 < 2 ^ 32 by norm_num),
      imm_val _ _ (show 0x400 < 2 ^ 32 by norm_num), imm_val _ _ (show 0x4000 < 2 ^ 32 by norm_num),
      imm_val _ _ (show 0x3D1 < 2 ^ 32 by norm_num), imm_val _ _ (show 0x40 < 2 ^ 32 by norm_num)]
    simp only [Env.f, Nat.reduceMul, Nat.mul_zero, Nat.add_zero, colV_hi, q2, q3, q4, q5]
    all_goals refine congrArg (· % 2 ^ 64) ?_
    all_goals ring
  · simp only [mulD, List.getElem?_cons_zero, List.getElem?_cons_succ, Option.some.injEq] at h
    subst h
    rw [show colV q 7 = u64 (colV q 5 >>> 26 + q 13) from rfl, u64, Env.sum]
    simp only [Env.prods, Env.shrs, Env.words, f_low _ _ 26 (by norm_num), imm_val _ _ (show 0x3D10 < 2 ^ 32 by norm_num),
      imm_val _ _ (show 0x400 < 2 ^ 32 by norm_num), imm_val _ _ (show 0x4000 < 2 ^ 32 by norm_num),
      imm_val _ _ (show 0x3D1 < 2 ^ 32 by norm_num), imm_val _ _ (show 0x40 < 2 ^ 32 by norm_num)]
    simp only [Env.f, Nat.reduceMul, Nat.mul_zero, Nat.add_zero, colV_hi, q5, q13]
    all_goals refine congrArg (· % 2 ^ 64) ?_
    all_goals ring
  · simp only [mulD, List.getElem?_cons_zero, List.getElem?_cons_succ, Option.some.injEq] at h
    subst h
    rw [show colV q 8 = u64 (colV q 6 >>> 26 + colV q 5 % 2 ^ 26 * 0x400 + q 3 + colV q 7 % 2 ^ 26 * 0x3D10) from rfl, u64, Env.sum]
    simp only [Env.prods, Env.shrs, Env.words, f_low _ _ 26 (by norm_num), imm_val _ _ (show 0x3D10 < 2 ^ 32 by norm_num),
      imm_val _ _ (show 0x400 < 2 ^ 32 by norm_num), imm_val _ _ (show 0x4000 < 2 ^ 32 by norm_num),
      imm_val _ _ (show 0x3D1 < 2 ^ 32 by norm_num), imm_val _ _ (show 0x40 < 2 ^ 32 by norm_num)]
    simp only [Env.f, Nat.reduceMul, Nat.mul_zero, Nat.add_zero, colV_hi, q3, q5, q6, q7]
    all_goals refine congrArg (· % 2 ^ 64) ?_
    all_goals ring
  · simp only [mulD, List.getElem?_cons_zero, List.getElem?_cons_succ, Option.some.injEq] at h
    subst h
    rw [show colV q 9 = u64 (colV q 7 >>> 26 + q 14) from rfl, u64, Env.sum]
    simp only [Env.prods, Env.shrs, Env.words, f_low _ _ 26 (by norm_num), imm_val _ _ (show 0x3D10 < 2 ^ 32 by norm_num),
      imm_val _ _ (show 0x400 < 2 ^ 32 by norm_num), imm_val _ _ (show 0x4000 < 2 ^ 32 by norm_num),
      imm_val _ _ (show 0x3D1 < 2 ^ 32 by norm_num), imm_val _ _ (show 0x40 < 2 ^ 32 by norm_num)]
    simp only [Env.f, Nat.reduceMul, Nat.mul_zero, Nat.add_zero, colV_hi, q7, q14]
    all_goals refine congrArg (· % 2 ^ 64) ?_
    all_goals ring
  · simp only [mulD, List.getElem?_cons_zero, List.getElem?_cons_succ, Option.some.injEq] at h
    subst h
    rw [show colV q 10 = u64 (colV q 8 >>> 26 + colV q 7 % 2 ^ 26 * 0x400 + q 4 + colV q 9 % 2 ^ 26 * 0x3D10) from rfl, u64, Env.sum]
    simp only [Env.prods, Env.shrs, Env.words, f_low _ _ 26 (by norm_num), imm_val _ _ (show 0x3D10 < 2 ^ 32 by norm_num),
      imm_val _ _ (show 0x400 < 2 ^ 32 by norm_num), imm_val _ _ (show 0x4000 < 2 ^ 32 by norm_num),
      imm_val _ _ (show 0x3D1 < 2 ^ 32 by norm_num), imm_val _ _ (show 0x40 < 2 ^ 32 by norm_num)]
    simp only [Env.f, Nat.reduceMul, Nat.mul_zero, Nat.add_zero, colV_hi, q4, q7, q8, q9]
    all_goals refine congrArg (· % 2 ^ 64) ?_
    all_goals ring
  · simp only [mulD, List.getElem?_cons_zero, List.getElem?_cons_succ, Option.some.injEq] at h
    subst h
    rw [show colV q 11 = u64 (colV q 9 >>> 26 + q 15) from rfl, u64, Env.sum]
    simp only [Env.prods, Env.shrs, Env.words, f_low _ _ 26 (by norm_num), imm_val _ _ (show 0x3D10 < 2 ^ 32 by norm_num),
      imm_val _ _ (show 0x400 < 2 ^ 32 by norm_num), imm_val _ _ (show 0x4000 < 2 ^ 32 by norm_num),
      imm_val _ _ (show 0x3D1 < 2 ^ 32 by norm_num), imm_val _ _ (show 0x40 < 2 ^ 32 by norm_num)]
    simp only [Env.f, Nat.reduceMul, Nat.mul_zero, Nat.add_zero, colV_hi, q9, q15]
    all_goals refine congrArg (· % 2 ^ 64) ?_
    all_goals ring
  · simp only [mulD, List.getElem?_cons_zero, List.getElem?_cons_succ, Option.some.injEq] at h
    subst h
    rw [show colV q 12 = u64 (colV q 10 >>> 26 + colV q 9 % 2 ^ 26 * 0x400 + q 5 + colV q 11 % 2 ^ 26 * 0x3D10) from rfl, u64, Env.sum]
    simp only [Env.prods, Env.shrs, Env.words, f_low _ _ 26 (by norm_num), imm_val _ _ (show 0x3D10 < 2 ^ 32 by norm_num),
      imm_val _ _ (show 0x400 < 2 ^ 32 by norm_num), imm_val _ _ (show 0x4000 < 2 ^ 32 by norm_num),
      imm_val _ _ (show 0x3D1 < 2 ^ 32 by norm_num), imm_val _ _ (show 0x40 < 2 ^ 32 by norm_num)]
    simp only [Env.f, Nat.reduceMul, Nat.mul_zero, Nat.add_zero, colV_hi, q5, q9, q10, q11]
    all_goals refine congrArg (· % 2 ^ 64) ?_
    all_goals ring
  · simp only [mulD, List.getElem?_cons_zero, List.getElem?_cons_succ, Option.some.injEq] at h
    subst h
    rw [show colV q 13 = u64 (colV q 11 >>> 26 + q 16) from rfl, u64, Env.sum]
    simp only [Env.prods, Env.shrs, Env.words, f_low _ _ 26 (by norm_num), imm_val _ _ (show 0x3D10 < 2 ^ 32 by norm_num),
      imm_val _ _ (show 0x400 < 2 ^ 32 by norm_num), imm_val _ _ (show 0x4000 < 2 ^ 32 by norm_num),
      imm_val _ _ (show 0x3D1 < 2 ^ 32 by norm_num), imm_val _ _ (show 0x40 < 2 ^ 32 by norm_num)]
    simp only [Env.f, Nat.reduceMul, Nat.mul_zero, Nat.add_zero, colV_hi, q11, q16]
    all_goals refine congrArg (· % 2 ^ 64) ?_
    all_goals ring
  · simp only [mulD, List.getElem?_cons_zero, List.getElem?_cons_succ, Option.some.injEq] at h
    subst h
    rw [show colV q 14 = u64 (colV q 12 >>> 26 + colV q 11 % 2 ^ 26 * 0x400 + q 6 + colV q 13 % 2 ^ 26 * 0x3D10) from rfl, u64, Env.sum]
    simp only [Env.prods, Env.shrs, Env.words, f_low _ _ 26 (by norm_num), imm_val _ _ (show 0x3D10 < 2 ^ 32 by norm_num),
      imm_val _ _ (show 0x400 < 2 ^ 32 by norm_num), imm_val _ _ (show 0x4000 < 2 ^ 32 by norm_num),
      imm_val _ _ (show 0x3D1 < 2 ^ 32 by norm_num), imm_val _ _ (show 0x40 < 2 ^ 32 by norm_num)]
    simp only [Env.f, Nat.reduceMul, Nat.mul_zero, Nat.add_zero, colV_hi, q6, q11, q12, q13]
    all_goals refine congrArg (· % 2 ^ 64) ?_
    all_goals ring
  · simp only [mulD, List.getElem?_cons_zero, List.getElem?_cons_succ, Option.some.injEq] at h
    subst h
    rw [show colV q 15 = u64 (colV q 13 >>> 26 + q 17) from rfl, u64, Env.sum]
    simp only [Env.prods, Env.shrs, Env.words, f_low _ _ 26 (by norm_num), imm_val _ _ (show 0x3D10 < 2 ^ 32 by norm_num),
      imm_val _ _ (show 0x400 < 2 ^ 32 by norm_num), imm_val _ _ (show 0x4000 < 2 ^ 32 by norm_num),
      imm_val _ _ (show 0x3D1 < 2 ^ 32 by norm_num), imm_val _ _ (show 0x40 < 2 ^ 32 by norm_num)]
    simp only [Env.f, Nat.reduceMul, Nat.mul_zero, Nat.add_zero, colV_hi, q13, q17]
    all_goals refine congrArg (· % 2 ^ 64) ?_
    all_goals ring
  · simp only [mulD, List.getElem?_cons_zero, List.getElem?_cons_succ, Option.some.injEq] at h
    subst h
    rw [show colV q 16 = u64 (colV q 14 >>> 26 + colV q 13 % 2 ^ 26 * 0x400 + q 7 + colV q 15 % 2 ^ 26 * 0x3D10) from rfl, u64, Env.sum]
    simp only [Env.prods, Env.shrs, Env.words, f_low _ _ 26 (by norm_num), imm_val _ _ (show 0x3D10 < 2 ^ 32 by norm_num),
      imm_val _ _ (show 0x400 < 2 ^ 32 by norm_num), imm_val _ _ (show 0x4000 < 2 ^ 32 by norm_num),
      imm_val _ _ (show 0x3D1 < 2 ^ 32 by norm_num), imm_val _ _ (show 0x40 < 2 ^ 32 by norm_num)]
    simp only [Env.f, Nat.reduceMul, Nat.mul_zero, Nat.add_zero, colV_hi, q7, q13, q14, q15]
    all_goals refine congrArg (· % 2 ^ 64) ?_
    all_goals ring
  · simp only [mulD, List.getElem?_cons_zero, List.getElem?_cons_succ, Option.some.injEq] at h
    subst h
    rw [show colV q 17 = u64 (colV q 15 >>> 26 + q 18) from rfl, u64, Env.sum]
    simp only [Env.prods, Env.shrs, Env.words, f_low _ _ 26 (by norm_num), imm_val _ _ (show 0x3D10 < 2 ^ 32 by norm_num),
      imm_val _ _ (show 0x400 < 2 ^ 32 by norm_num), imm_val _ _ (show 0x4000 < 2 ^ 32 by norm_num),
      imm_val _ _ (show 0x3D1 < 2 ^ 32 by norm_num), imm_val _ _ (show 0x40 < 2 ^ 32 by norm_num)]
    simp only [Env.f, Nat.reduceMul, Nat.mul_zero, Nat.add_zero, colV_hi, q15, q18]
    all_goals refine congrArg (· % 2 ^ 64) ?_
    all_goals ring
  · simp only [mulD, List.getElem?_cons_zero, List.getElem?_cons_succ, Option.some.injEq] at h
    subst h
    rw [show colV q 18 = u64 (colV q 16 >>> 26 + colV q 15 % 2 ^ 26 * 0x400 + q 8 + colV q 17 % 2 ^ 26 * 0x3D10) from rfl, u64, Env.sum]
    simp only [Env.prods, Env.shrs, Env.words, f_low _ _ 26 (by norm_num), imm_val _ _ (show 0x3D10 < 2 ^ 32 by norm_num),
      imm_val _ _ (show 0x400 < 2 ^ 32 by norm_num), imm_val _ _ (show 0x4000 < 2 ^ 32 by norm_num),
      imm_val _ _ (show 0x3D1 < 2 ^ 32 by norm_num), imm_val _ _ (show 0x40 < 2 ^ 32 by norm_num)]
    simp only [Env.f, Nat.reduceMul, Nat.mul_zero, Nat.add_zero, colV_hi, q8, q15, q16, q17]
    all_goals refine congrArg (· % 2 ^ 64) ?_
    all_goals ring
  · simp only [mulD, List.getElem?_cons_zero, List.getElem?_cons_succ, Option.some.injEq] at h
    subst h
    rw [S_shr _ _ (show colV q 17 < 2 ^ 64 from Nat.mod_lt _ (by norm_num))]
    rfl
  · simp only [mulD, List.getElem?_cons_zero, List.getElem?_cons_succ, Option.some.injEq] at h
    subst h
    rw [show colV q 20 = u64 (colV q 18 >>> 26 + colV q 17 % 2 ^ 26 * 0x400 + colV q 19 % 2 ^ 32 * 0x3D10 + colV q 0 % 2 ^ 26) from rfl, u64, Env.sum]
    simp only [Env.prods, Env.shrs, Env.words, f_low _ _ 26 (by norm_num), imm_val _ _ (show 0x3D10 < 2 ^ 32 by norm_num),
      imm_val _ _ (show 0x400 < 2 ^ 32 by norm_num), imm_val _ _ (show 0x4000 < 2 ^ 32 by norm_num),
      imm_val _ _ (show 0x3D1 < 2 ^ 32 by norm_num), imm_val _ _ (show 0x40 < 2 ^ 32 by norm_num)]
    simp only [Env.f, Nat.reduceMul, Nat.mul_zero, Nat.add_zero, colV_hi, q0, q17, q18]
    all_goals refine congrArg (· % 2 ^ 64) ?_
    all_goals ring
  · simp only [mulD, List.getElem?_cons_zero, List.getElem?_cons_succ, Option.some.injEq] at h
    subst h
    rw [show colV q 21 = u64 (colV q 20 >>> 22 + colV q 19 % 2 ^ 32 * 0x4000) from rfl, u64, Env.sum]
    simp only [Env.prods, Env.shrs, Env.words, f_low _ _ 26 (by norm_num), imm_val _ _ (show 0x3D10 < 2 ^ 32 by norm_num),
      imm_val _ _ (show 0x400 < 2 ^ 32 by norm_num), imm_val _ _ (show 0x4000 < 2 ^ 32 by norm_num),
      imm_val _ _ (show 0x3D1 < 2 ^ 32 by norm_num), imm_val _ _ (show 0x40 < 2 ^ 32 by norm_num)]
    simp only [Env.f, Nat.reduceMul, Nat.mul_zero, Nat.add_zero, colV_hi]
    all_goals refine congrArg (· % 2 ^ 64) ?_
    all_goals ring
  · simp only [mulD, List.getElem?_cons_zero, List.getElem?_cons_succ, Option.some.injEq] at h
    subst h
    rw [show colV q 22 = u64 (colV q 21 % 2 ^ 32 * 0x3D1 + colV q 2 % 2 ^ 26 + 2 ^ 32 * (0x3D1 * 0)) from rfl, u64, Env.sum]
    simp only [Env.prods, Env.shrs, Env.words, f_low _ _ 26 (by norm_num), imm_val _ _ (show 0x3D10 < 2 ^ 32 by norm_num),
      imm_val _ _ (show 0x400 < 2 ^ 32 by norm_num), imm_val _ _ (show 0x4000 < 2 ^ 32 by norm_num),
      imm_val _ _ (show 0x3D1 < 2 ^ 32 by norm_num), imm_val _ _ (show 0x40 < 2 ^ 32 by norm_num)]
    simp only [Env.f, Nat.reduceMul, Nat.mul_zero, Nat.add_zero, colV_hi, q2]
    all_goals refine congrArg (· % 2 ^ 64) ?_
    all_goals ring
  · simp only [mulD, List.getElem?_cons_zero, List.getElem?_cons_succ, Option.some.injEq] at h
    subst h
    rw [show colV q 23 = u64 (colV q 21 % 2 ^ 32 * 0x3D1 + colV q 2 % 2 ^ 26 + 2 ^ 32 * (0x3D1 * (colV q 21 / 2 ^ 32))) from rfl, u64, Env.sum]
    simp only [Env.prods, Env.shrs, Env.words, f_low _ _ 26 (by norm_num), imm_val _ _ (show 0x3D10 < 2 ^ 32 by norm_num),
      imm_val _ _ (show 0x400 < 2 ^ 32 by norm_num), imm_val _ _ (show 0x4000 < 2 ^ 32 by norm_num),
      imm_val _ _ (show 0x3D1 < 2 ^ 32 by norm_num), imm_val _ _ (show 0x40 < 2 ^ 32 by norm_num)]
    simp only [Env.f, Nat.reduceMul, Nat.mul_zero, Nat.add_zero, colV_hi, q2]
    all_goals refine congrArg (· % 2 ^ 64) ?_
    all_goals ring
  · simp only [mulD, List.getElem?_cons_zero, List.getElem?_cons_succ, Option.some.injEq] at h
    subst h
    rw [show colV q 24 = u64 (colV q 23 >>> 26 + colV q 21 % 2 ^ 32 * 0x40 + colV q 4 % 2 ^ 26 + 2 ^ 32 * (0x40 * 0)) from rfl, u64, Env.sum]
    simp only [Env.prods, Env.shrs, Env.words, f_low _ _ 26 (by norm_num), imm_val _ _ (show 0x3D10 < 2 ^ 32 by norm_num),
      imm_val _ _ (show 0x400 < 2 ^ 32 by norm_num), imm_val _ _ (show 0x4000 < 2 ^ 32 by norm_num),
      imm_val _ _ (show 0x3D1 < 2 ^ 32 by norm_num), imm_val _ _ (show 0x40 < 2 ^ 32 by norm_num)]
    simp only [Env.f, Nat.reduceMul, Nat.mul_zero, Nat.add_zero, colV_hi, q4]
    all_goals refine congrArg (· % 2 ^ 64) ?_
    all_goals ring
  · simp only [mulD, List.getElem?_cons_zero, List.getElem?_cons_succ, Option.some.injEq] at h
    subst h
    rw [show colV q 25 = u64 (colV q 23 >>> 26 + colV q 21 % 2 ^ 32 * 0x40 + colV q 4 % 2 ^ 26 + 2 ^ 32 * (0x40 * (colV q 21 / 2 ^ 32))) from rfl, u64, Env.sum]
    simp only [Env.prods, Env.shrs, Env.words, f_low _ _ 26 (by norm_num), imm_val _ _ (show 0x3D10 < 2 ^ 32 by norm_num),
      imm_val _ _ (show 0x400 < 2 ^ 32 by norm_num), imm_val _ _ (show 0x4000 < 2 ^ 32 by norm_num),
      imm_val _ _ (show 0x3D1 < 2 ^ 32 by norm_num), imm_val _ _ (show 0x40 < 2 ^ 32 by norm_num)]
    simp only [Env.f, Nat.reduceMul, Nat.mul_zero, Nat.add_zero, colV_hi, q4]
    all_goals refine congrArg (· % 2 ^ 64) ?_
    all_goals ring

/-- The sums of `sqrInner` have the values of the columns. -/
theorem sqrD_V {s : St} {q : ℕ → ℕ} (hq : q = sqrProds (fe10At s.mem (s.reg 1))) (k : ℕ) (x : S)
    (h : sqrD[k]? = some x) : colV q k = Env.sum ⟨s, s.reg 1, s.reg 1, colV q⟩ x := by
  have hk : k < 26 := by
    by_contra hk
    rw [List.getElem?_eq_none (show sqrD.length ≤ k by simp only [sqrD, List.length_cons, List.length_nil]; omega)] at h
    simp at h
  have q0 : q 0 = s.mem (s.reg 1) * s.mem (s.reg 1) := by
    rw [hq]; rfl
  have q1 : q 1 = u32 (s.mem (s.reg 1) * 2) * s.mem (s.reg 1 + 4) := by
    rw [hq]; rfl
  have q2 : q 2 = u32 (s.mem (s.reg 1) * 2) * s.mem (s.reg 1 + 8) + s.mem (s.reg 1 + 4) * s.mem (s.reg 1 + 4) := by
    rw [hq]; rfl
  have q3 : q 3 = u32 (s.mem (s.reg 1) * 2) * s.mem (s.reg 1 + 12) + u32 (s.mem (s.reg 1 + 4) * 2) * s.mem (s.reg 1 + 8) := by
    rw [hq]; rfl
  have q4 : q 4 = u32 (s.mem (s.reg 1) * 2) * s.mem (s.reg 1 + 16) + u32 (s.mem (s.reg 1 + 4) * 2) * s.mem (s.reg 1 + 12) + s.mem (s.reg 1 + 8) * s.mem (s.reg 1 + 8) := by
    rw [hq]; rfl
  have q5 : q 5 = u32 (s.mem (s.reg 1) * 2) * s.mem (s.reg 1 + 20) + u32 (s.mem (s.reg 1 + 4) * 2) * s.mem (s.reg 1 + 16) + u32 (s.mem (s.reg 1 + 8) * 2) * s.mem (s.reg 1 + 12) := by
    rw [hq]; rfl
  have q6 : q 6 = u32 (s.mem (s.reg 1) * 2) * s.mem (s.reg 1 + 24) + u32 (s.mem (s.reg 1 + 4) * 2) * s.mem (s.reg 1 + 20) + u32 (s.mem (s.reg 1 + 8) * 2) * s.mem (s.reg 1 + 16) + s.mem (s.reg 1 + 12) * s.mem (s.reg 1 + 12) := by
    rw [hq]; rfl
  have q7 : q 7 = u32 (s.mem (s.reg 1) * 2) * s.mem (s.reg 1 + 28) + u32 (s.mem (s.reg 1 + 4) * 2) * s.mem (s.reg 1 + 24) + u32 (s.mem (s.reg 1 + 8) * 2) * s.mem (s.reg 1 + 20) + u32 (s.mem (s.reg 1 + 12) * 2) * s.mem (s.reg 1 + 16) := by
    rw [hq]; rfl
  have q8 : q 8 = u32 (s.mem (s.reg 1) * 2) * s.mem (s.reg 1 + 32) + u32 (s.mem (s.reg 1 + 4) * 2) * s.mem (s.reg 1 + 28) + u32 (s.mem (s.reg 1 + 8) * 2) * s.mem (s.reg 1 + 24) + u32 (s.mem (s.reg 1 + 12) * 2) * s.mem (s.reg 1 + 20) + s.mem (s.reg 1 + 16) * s.mem (s.reg 1 + 16) := by
    rw [hq]; rfl
  have q9 : q 9 = u32 (s.mem (s.reg 1) * 2) * s.mem (s.reg 1 + 36) + u32 (s.mem (s.reg 1 + 4) * 2) * s.mem (s.reg 1 + 32) + u32 (s.mem (s.reg 1 + 8) * 2) * s.mem (s.reg 1 + 28) + u32 (s.mem (s.reg 1 + 12) * 2) * s.mem (s.reg 1 + 24) + u32 (s.mem (s.reg 1 + 16) * 2) * s.mem (s.reg 1 + 20) := by
    rw [hq]; rfl
  have q10 : q 10 = u32 (s.mem (s.reg 1 + 4) * 2) * s.mem (s.reg 1 + 36) + u32 (s.mem (s.reg 1 + 8) * 2) * s.mem (s.reg 1 + 32) + u32 (s.mem (s.reg 1 + 12) * 2) * s.mem (s.reg 1 + 28) + u32 (s.mem (s.reg 1 + 16) * 2) * s.mem (s.reg 1 + 24) + s.mem (s.reg 1 + 20) * s.mem (s.reg 1 + 20) := by
    rw [hq]; rfl
  have q11 : q 11 = u32 (s.mem (s.reg 1 + 8) * 2) * s.mem (s.reg 1 + 36) + u32 (s.mem (s.reg 1 + 12) * 2) * s.mem (s.reg 1 + 32) + u32 (s.mem (s.reg 1 + 16) * 2) * s.mem (s.reg 1 + 28) + u32 (s.mem (s.reg 1 + 20) * 2) * s.mem (s.reg 1 + 24) := by
    rw [hq]; rfl
  have q12 : q 12 = u32 (s.mem (s.reg 1 + 12) * 2) * s.mem (s.reg 1 + 36) + u32 (s.mem (s.reg 1 + 16) * 2) * s.mem (s.reg 1 + 32) + u32 (s.mem (s.reg 1 + 20) * 2) * s.mem (s.reg 1 + 28) + s.mem (s.reg 1 + 24) * s.mem (s.reg 1 + 24) := by
    rw [hq]; rfl
  have q13 : q 13 = u32 (s.mem (s.reg 1 + 16) * 2) * s.mem (s.reg 1 + 36) + u32 (s.mem (s.reg 1 + 20) * 2) * s.mem (s.reg 1 + 32) + u32 (s.mem (s.reg 1 + 24) * 2) * s.mem (s.reg 1 + 28) := by
    rw [hq]; rfl
  have q14 : q 14 = u32 (s.mem (s.reg 1 + 20) * 2) * s.mem (s.reg 1 + 36) + u32 (s.mem (s.reg 1 + 24) * 2) * s.mem (s.reg 1 + 32) + s.mem (s.reg 1 + 28) * s.mem (s.reg 1 + 28) := by
    rw [hq]; rfl
  have q15 : q 15 = u32 (s.mem (s.reg 1 + 24) * 2) * s.mem (s.reg 1 + 36) + u32 (s.mem (s.reg 1 + 28) * 2) * s.mem (s.reg 1 + 32) := by
    rw [hq]; rfl
  have q16 : q 16 = u32 (s.mem (s.reg 1 + 28) * 2) * s.mem (s.reg 1 + 36) + s.mem (s.reg 1 + 32) * s.mem (s.reg 1 + 32) := by
    rw [hq]; rfl
  have q17 : q 17 = u32 (s.mem (s.reg 1 + 32) * 2) * s.mem (s.reg 1 + 36) := by
    rw [hq]; rfl
  have q18 : q 18 = s.mem (s.reg 1 + 36) * s.mem (s.reg 1 + 36) := by
    rw [hq]; rfl
  clear hq
  interval_cases k
  · simp only [sqrD, List.getElem?_cons_zero, List.getElem?_cons_succ, Option.some.injEq] at h
    subst h
    rw [show colV q 0 = u64 (q 9) from rfl, u64, Env.sum]
    simp only [Env.prods, Env.shrs, Env.words, f_low _ _ 26 (by norm_num), imm_val _ _ (show 0x3D10 < 2 ^ 32 by norm_num),
      imm_val _ _ (show 0x400 < 2 ^ 32 by norm_num), imm_val _ _ (show 0x4000 < 2 ^ 32 by norm_num),
      imm_val _ _ (show 0x3D1 < 2 ^ 32 by norm_num), imm_val _ _ (show 0x40 < 2 ^ 32 by norm_num)]
    simp only [Env.f, Nat.reduceMul, Nat.mul_zero, Nat.add_zero, colV_hi, q9]
    all_goals refine congrArg (· % 2 ^ 64) ?_
    all_goals ring
  · simp only [sqrD, List.getElem?_cons_zero, List.getElem?_cons_succ, Option.some.injEq] at h
    subst h
    rw [show colV q 1 = u64 (colV q 0 >>> 26 + q 10) from rfl, u64, Env.sum]
    simp only [Env.prods, Env.shrs, Env.words, f_low _ _ 26 (by norm_num), imm_val _ _ (show 0x3D10 < 2 ^ 32 by norm_num),
      imm_val _ _ (show 0x400 < 2 ^ 32 by norm_num), imm_val _ _ (show 0x4000 < 2 ^ 32 by norm_num),
      imm_val _ _ (show 0x3D1 < 2 ^ 32 by norm_num), imm_val _ _ (show 0x40 < 2 ^ 32 by norm_num)]
    simp only [Env.f, Nat.reduceMul, Nat.mul_zero, Nat.add_zero, colV_hi, q0, q10]
    all_goals refine congrArg (· % 2 ^ 64) ?_
    all_goals ring
  · simp only [sqrD, List.getElem?_cons_zero, List.getElem?_cons_succ, Option.some.injEq] at h
    subst h
    rw [show colV q 2 = u64 (q 0 + colV q 1 % 2 ^ 26 * 0x3D10) from rfl, u64, Env.sum]
    simp only [Env.prods, Env.shrs, Env.words, f_low _ _ 26 (by norm_num), imm_val _ _ (show 0x3D10 < 2 ^ 32 by norm_num),
      imm_val _ _ (show 0x400 < 2 ^ 32 by norm_num), imm_val _ _ (show 0x4000 < 2 ^ 32 by norm_num),
      imm_val _ _ (show 0x3D1 < 2 ^ 32 by norm_num), imm_val _ _ (show 0x40 < 2 ^ 32 by norm_num)]
    simp only [Env.f, Nat.reduceMul, Nat.mul_zero, Nat.add_zero, colV_hi, q0, q1]
    all_goals refine congrArg (· % 2 ^ 64) ?_
    all_goals ring
  · simp only [sqrD, List.getElem?_cons_zero, List.getElem?_cons_succ, Option.some.injEq] at h
    subst h
    rw [show colV q 3 = u64 (colV q 1 >>> 26 + q 11) from rfl, u64, Env.sum]
    simp only [Env.prods, Env.shrs, Env.words, f_low _ _ 26 (by norm_num), imm_val _ _ (show 0x3D10 < 2 ^ 32 by norm_num),
      imm_val _ _ (show 0x400 < 2 ^ 32 by norm_num), imm_val _ _ (show 0x4000 < 2 ^ 32 by norm_num),
      imm_val _ _ (show 0x3D1 < 2 ^ 32 by norm_num), imm_val _ _ (show 0x40 < 2 ^ 32 by norm_num)]
    simp only [Env.f, Nat.reduceMul, Nat.mul_zero, Nat.add_zero, colV_hi, q1, q11]
    all_goals refine congrArg (· % 2 ^ 64) ?_
    all_goals ring
  · simp only [sqrD, List.getElem?_cons_zero, List.getElem?_cons_succ, Option.some.injEq] at h
    subst h
    rw [show colV q 4 = u64 (colV q 2 >>> 26 + colV q 1 % 2 ^ 26 * 0x400 + q 1 + colV q 3 % 2 ^ 26 * 0x3D10) from rfl, u64, Env.sum]
    simp only [Env.prods, Env.shrs, Env.words, f_low _ _ 26 (by norm_num), imm_val _ _ (show 0x3D10 < 2 ^ 32 by norm_num),
      imm_val _ _ (show 0x400 < 2 ^ 32 by norm_num), imm_val _ _ (show 0x4000 < 2 ^ 32 by norm_num),
      imm_val _ _ (show 0x3D1 < 2 ^ 32 by norm_num), imm_val _ _ (show 0x40 < 2 ^ 32 by norm_num)]
    simp only [Env.f, Nat.reduceMul, Nat.mul_zero, Nat.add_zero, colV_hi, q1, q2, q3]
    all_goals refine congrArg (· % 2 ^ 64) ?_
    all_goals ring
  · simp only [sqrD, List.getElem?_cons_zero, List.getElem?_cons_succ, Option.some.injEq] at h
    subst h
    rw [show colV q 5 = u64 (colV q 3 >>> 26 + q 12) from rfl, u64, Env.sum]
    simp only [Env.prods, Env.shrs, Env.words, f_low _ _ 26 (by norm_num), imm_val _ _ (show 0x3D10 < 2 ^ 32 by norm_num),
      imm_val _ _ (show 0x400 < 2 ^ 32 by norm_num), imm_val _ _ (show 0x4000 < 2 ^ 32 by norm_num),
      imm_val _ _ (show 0x3D1 < 2 ^ 32 by norm_num), imm_val _ _ (show 0x40 < 2 ^ 32 by norm_num)]
    simp only [Env.f, Nat.reduceMul, Nat.mul_zero, Nat.add_zero, colV_hi, q3, q12]
    all_goals refine congrArg (· % 2 ^ 64) ?_
    all_goals ring
  · simp only [sqrD, List.getElem?_cons_zero, List.getElem?_cons_succ, Option.some.injEq] at h
    subst h
    rw [show colV q 6 = u64 (colV q 4 >>> 26 + colV q 3 % 2 ^ 26 * 0x400 + q 2 + colV q 5 % 2 ^ 26 * 0x3D10) from rfl, u64, Env.sum]
    simp only [Env.prods, Env.shrs, Env.words, f_low _ _ 26 (by norm_num), imm_val _ _ (show 0x3D10 < 2 ^ 32 by norm_num),
      imm_val _ _ (show 0x400 < 2 ^ 32 by norm_num), imm_val _ _ (show 0x4000 < 2 ^ 32 by norm_num),
      imm_val _ _ (show 0x3D1 < 2 ^ 32 by norm_num), imm_val _ _ (show 0x40 < 2 ^ 32 by norm_num)]
    simp only [Env.f, Nat.reduceMul, Nat.mul_zero, Nat.add_zero, colV_hi, q2, q3, q4, q5]
    all_goals refine congrArg (· % 2 ^ 64) ?_
    all_goals ring
  · simp only [sqrD, List.getElem?_cons_zero, List.getElem?_cons_succ, Option.some.injEq] at h
    subst h
    rw [show colV q 7 = u64 (colV q 5 >>> 26 + q 13) from rfl, u64, Env.sum]
    simp only [Env.prods, Env.shrs, Env.words, f_low _ _ 26 (by norm_num), imm_val _ _ (show 0x3D10 < 2 ^ 32 by norm_num),
      imm_val _ _ (show 0x400 < 2 ^ 32 by norm_num), imm_val _ _ (show 0x4000 < 2 ^ 32 by norm_num),
      imm_val _ _ (show 0x3D1 < 2 ^ 32 by norm_num), imm_val _ _ (show 0x40 < 2 ^ 32 by norm_num)]
    simp only [Env.f, Nat.reduceMul, Nat.mul_zero, Nat.add_zero, colV_hi, q5, q13]
    all_goals refine congrArg (· % 2 ^ 64) ?_
    all_goals ring
  · simp only [sqrD, List.getElem?_cons_zero, List.getElem?_cons_succ, Option.some.injEq] at h
    subst h
    rw [show colV q 8 = u64 (colV q 6 >>> 26 + colV q 5 % 2 ^ 26 * 0x400 + q 3 + colV q 7 % 2 ^ 26 * 0x3D10) from rfl, u64, Env.sum]
    simp only [Env.prods, Env.shrs, Env.words, f_low _ _ 26 (by norm_num), imm_val _ _ (show 0x3D10 < 2 ^ 32 by norm_num),
      imm_val _ _ (show 0x400 < 2 ^ 32 by norm_num), imm_val _ _ (show 0x4000 < 2 ^ 32 by norm_num),
      imm_val _ _ (show 0x3D1 < 2 ^ 32 by norm_num), imm_val _ _ (show 0x40 < 2 ^ 32 by norm_num)]
    simp only [Env.f, Nat.reduceMul, Nat.mul_zero, Nat.add_zero, colV_hi, q3, q5, q6, q7]
    all_goals refine congrArg (· % 2 ^ 64) ?_
    all_goals ring
  · simp only [sqrD, List.getElem?_cons_zero, List.getElem?_cons_succ, Option.some.injEq] at h
    subst h
    rw [show colV q 9 = u64 (colV q 7 >>> 26 + q 14) from rfl, u64, Env.sum]
    simp only [Env.prods, Env.shrs, Env.words, f_low _ _ 26 (by norm_num), imm_val _ _ (show 0x3D10 < 2 ^ 32 by norm_num),
      imm_val _ _ (show 0x400 < 2 ^ 32 by norm_num), imm_val _ _ (show 0x4000 < 2 ^ 32 by norm_num),
      imm_val _ _ (show 0x3D1 < 2 ^ 32 by norm_num), imm_val _ _ (show 0x40 < 2 ^ 32 by norm_num)]
    simp only [Env.f, Nat.reduceMul, Nat.mul_zero, Nat.add_zero, colV_hi, q7, q14]
    all_goals refine congrArg (· % 2 ^ 64) ?_
    all_goals ring
  · simp only [sqrD, List.getElem?_cons_zero, List.getElem?_cons_succ, Option.some.injEq] at h
    subst h
    rw [show colV q 10 = u64 (colV q 8 >>> 26 + colV q 7 % 2 ^ 26 * 0x400 + q 4 + colV q 9 % 2 ^ 26 * 0x3D10) from rfl, u64, Env.sum]
    simp only [Env.prods, Env.shrs, Env.words, f_low _ _ 26 (by norm_num), imm_val _ _ (show 0x3D10 < 2 ^ 32 by norm_num),
      imm_val _ _ (show 0x400 < 2 ^ 32 by norm_num), imm_val _ _ (show 0x4000 < 2 ^ 32 by norm_num),
      imm_val _ _ (show 0x3D1 < 2 ^ 32 by norm_num), imm_val _ _ (show 0x40 < 2 ^ 32 by norm_num)]
    simp only [Env.f, Nat.reduceMul, Nat.mul_zero, Nat.add_zero, colV_hi, q4, q7, q8, q9]
    all_goals refine congrArg (· % 2 ^ 64) ?_
    all_goals ring
  · simp only [sqrD, List.getElem?_cons_zero, List.getElem?_cons_succ, Option.some.injEq] at h
    subst h
    rw [show colV q 11 = u64 (colV q 9 >>> 26 + q 15) from rfl, u64, Env.sum]
    simp only [Env.prods, Env.shrs, Env.words, f_low _ _ 26 (by norm_num), imm_val _ _ (show 0x3D10 < 2 ^ 32 by norm_num),
      imm_val _ _ (show 0x400 < 2 ^ 32 by norm_num), imm_val _ _ (show 0x4000 < 2 ^ 32 by norm_num),
      imm_val _ _ (show 0x3D1 < 2 ^ 32 by norm_num), imm_val _ _ (show 0x40 < 2 ^ 32 by norm_num)]
    simp only [Env.f, Nat.reduceMul, Nat.mul_zero, Nat.add_zero, colV_hi, q9, q15]
    all_goals refine congrArg (· % 2 ^ 64) ?_
    all_goals ring
  · simp only [sqrD, List.getElem?_cons_zero, List.getElem?_cons_succ, Option.some.injEq] at h
    subst h
    rw [show colV q 12 = u64 (colV q 10 >>> 26 + colV q 9 % 2 ^ 26 * 0x400 + q 5 + colV q 11 % 2 ^ 26 * 0x3D10) from rfl, u64, Env.sum]
    simp only [Env.prods, Env.shrs, Env.words, f_low _ _ 26 (by norm_num), imm_val _ _ (show 0x3D10 < 2 ^ 32 by norm_num),
      imm_val _ _ (show 0x400 < 2 ^ 32 by norm_num), imm_val _ _ (show 0x4000 < 2 ^ 32 by norm_num),
      imm_val _ _ (show 0x3D1 < 2 ^ 32 by norm_num), imm_val _ _ (show 0x40 < 2 ^ 32 by norm_num)]
    simp only [Env.f, Nat.reduceMul, Nat.mul_zero, Nat.add_zero, colV_hi, q5, q9, q10, q11]
    all_goals refine congrArg (· % 2 ^ 64) ?_
    all_goals ring
  · simp only [sqrD, List.getElem?_cons_zero, List.getElem?_cons_succ, Option.some.injEq] at h
    subst h
    rw [show colV q 13 = u64 (colV q 11 >>> 26 + q 16) from rfl, u64, Env.sum]
    simp only [Env.prods, Env.shrs, Env.words, f_low _ _ 26 (by norm_num), imm_val _ _ (show 0x3D10 < 2 ^ 32 by norm_num),
      imm_val _ _ (show 0x400 < 2 ^ 32 by norm_num), imm_val _ _ (show 0x4000 < 2 ^ 32 by norm_num),
      imm_val _ _ (show 0x3D1 < 2 ^ 32 by norm_num), imm_val _ _ (show 0x40 < 2 ^ 32 by norm_num)]
    simp only [Env.f, Nat.reduceMul, Nat.mul_zero, Nat.add_zero, colV_hi, q11, q16]
    all_goals refine congrArg (· % 2 ^ 64) ?_
    all_goals ring
  · simp only [sqrD, List.getElem?_cons_zero, List.getElem?_cons_succ, Option.some.injEq] at h
    subst h
    rw [show colV q 14 = u64 (colV q 12 >>> 26 + colV q 11 % 2 ^ 26 * 0x400 + q 6 + colV q 13 % 2 ^ 26 * 0x3D10) from rfl, u64, Env.sum]
    simp only [Env.prods, Env.shrs, Env.words, f_low _ _ 26 (by norm_num), imm_val _ _ (show 0x3D10 < 2 ^ 32 by norm_num),
      imm_val _ _ (show 0x400 < 2 ^ 32 by norm_num), imm_val _ _ (show 0x4000 < 2 ^ 32 by norm_num),
      imm_val _ _ (show 0x3D1 < 2 ^ 32 by norm_num), imm_val _ _ (show 0x40 < 2 ^ 32 by norm_num)]
    simp only [Env.f, Nat.reduceMul, Nat.mul_zero, Nat.add_zero, colV_hi, q6, q11, q12, q13]
    all_goals refine congrArg (· % 2 ^ 64) ?_
    all_goals ring
  · simp only [sqrD, List.getElem?_cons_zero, List.getElem?_cons_succ, Option.some.injEq] at h
    subst h
    rw [show colV q 15 = u64 (colV q 13 >>> 26 + q 17) from rfl, u64, Env.sum]
    simp only [Env.prods, Env.shrs, Env.words, f_low _ _ 26 (by norm_num), imm_val _ _ (show 0x3D10 < 2 ^ 32 by norm_num),
      imm_val _ _ (show 0x400 < 2 ^ 32 by norm_num), imm_val _ _ (show 0x4000 < 2 ^ 32 by norm_num),
      imm_val _ _ (show 0x3D1 < 2 ^ 32 by norm_num), imm_val _ _ (show 0x40 < 2 ^ 32 by norm_num)]
    simp only [Env.f, Nat.reduceMul, Nat.mul_zero, Nat.add_zero, colV_hi, q13, q17]
    all_goals refine congrArg (· % 2 ^ 64) ?_
    all_goals ring
  · simp only [sqrD, List.getElem?_cons_zero, List.getElem?_cons_succ, Option.some.injEq] at h
    subst h
    rw [show colV q 16 = u64 (colV q 14 >>> 26 + colV q 13 % 2 ^ 26 * 0x400 + q 7 + colV q 15 % 2 ^ 26 * 0x3D10) from rfl, u64, Env.sum]
    simp only [Env.prods, Env.shrs, Env.words, f_low _ _ 26 (by norm_num), imm_val _ _ (show 0x3D10 < 2 ^ 32 by norm_num),
      imm_val _ _ (show 0x400 < 2 ^ 32 by norm_num), imm_val _ _ (show 0x4000 < 2 ^ 32 by norm_num),
      imm_val _ _ (show 0x3D1 < 2 ^ 32 by norm_num), imm_val _ _ (show 0x40 < 2 ^ 32 by norm_num)]
    simp only [Env.f, Nat.reduceMul, Nat.mul_zero, Nat.add_zero, colV_hi, q7, q13, q14, q15]
    all_goals refine congrArg (· % 2 ^ 64) ?_
    all_goals ring
  · simp only [sqrD, List.getElem?_cons_zero, List.getElem?_cons_succ, Option.some.injEq] at h
    subst h
    rw [show colV q 17 = u64 (colV q 15 >>> 26 + q 18) from rfl, u64, Env.sum]
    simp only [Env.prods, Env.shrs, Env.words, f_low _ _ 26 (by norm_num), imm_val _ _ (show 0x3D10 < 2 ^ 32 by norm_num),
      imm_val _ _ (show 0x400 < 2 ^ 32 by norm_num), imm_val _ _ (show 0x4000 < 2 ^ 32 by norm_num),
      imm_val _ _ (show 0x3D1 < 2 ^ 32 by norm_num), imm_val _ _ (show 0x40 < 2 ^ 32 by norm_num)]
    simp only [Env.f, Nat.reduceMul, Nat.mul_zero, Nat.add_zero, colV_hi, q15, q18]
    all_goals refine congrArg (· % 2 ^ 64) ?_
    all_goals ring
  · simp only [sqrD, List.getElem?_cons_zero, List.getElem?_cons_succ, Option.some.injEq] at h
    subst h
    rw [show colV q 18 = u64 (colV q 16 >>> 26 + colV q 15 % 2 ^ 26 * 0x400 + q 8 + colV q 17 % 2 ^ 26 * 0x3D10) from rfl, u64, Env.sum]
    simp only [Env.prods, Env.shrs, Env.words, f_low _ _ 26 (by norm_num), imm_val _ _ (show 0x3D10 < 2 ^ 32 by norm_num),
      imm_val _ _ (show 0x400 < 2 ^ 32 by norm_num), imm_val _ _ (show 0x4000 < 2 ^ 32 by norm_num),
      imm_val _ _ (show 0x3D1 < 2 ^ 32 by norm_num), imm_val _ _ (show 0x40 < 2 ^ 32 by norm_num)]
    simp only [Env.f, Nat.reduceMul, Nat.mul_zero, Nat.add_zero, colV_hi, q8, q15, q16, q17]
    all_goals refine congrArg (· % 2 ^ 64) ?_
    all_goals ring
  · simp only [sqrD, List.getElem?_cons_zero, List.getElem?_cons_succ, Option.some.injEq] at h
    subst h
    rw [S_shr _ _ (show colV q 17 < 2 ^ 64 from Nat.mod_lt _ (by norm_num))]
    rfl
  · simp only [sqrD, List.getElem?_cons_zero, List.getElem?_cons_succ, Option.some.injEq] at h
    subst h
    rw [show colV q 20 = u64 (colV q 18 >>> 26 + colV q 17 % 2 ^ 26 * 0x400 + colV q 19 % 2 ^ 32 * 0x3D10 + colV q 0 % 2 ^ 26) from rfl, u64, Env.sum]
    simp only [Env.prods, Env.shrs, Env.words, f_low _ _ 26 (by norm_num), imm_val _ _ (show 0x3D10 < 2 ^ 32 by norm_num),
      imm_val _ _ (show 0x400 < 2 ^ 32 by norm_num), imm_val _ _ (show 0x4000 < 2 ^ 32 by norm_num),
      imm_val _ _ (show 0x3D1 < 2 ^ 32 by norm_num), imm_val _ _ (show 0x40 < 2 ^ 32 by norm_num)]
    simp only [Env.f, Nat.reduceMul, Nat.mul_zero, Nat.add_zero, colV_hi, q0, q17, q18]
    all_goals refine congrArg (· % 2 ^ 64) ?_
    all_goals ring
  · simp only [sqrD, List.getElem?_cons_zero, List.getElem?_cons_succ, Option.some.injEq] at h
    subst h
    rw [show colV q 21 = u64 (colV q 20 >>> 22 + colV q 19 % 2 ^ 32 * 0x4000) from rfl, u64, Env.sum]
    simp only [Env.prods, Env.shrs, Env.words, f_low _ _ 26 (by norm_num), imm_val _ _ (show 0x3D10 < 2 ^ 32 by norm_num),
      imm_val _ _ (show 0x400 < 2 ^ 32 by norm_num), imm_val _ _ (show 0x4000 < 2 ^ 32 by norm_num),
      imm_val _ _ (show 0x3D1 < 2 ^ 32 by norm_num), imm_val _ _ (show 0x40 < 2 ^ 32 by norm_num)]
    simp only [Env.f, Nat.reduceMul, Nat.mul_zero, Nat.add_zero, colV_hi]
    all_goals refine congrArg (· % 2 ^ 64) ?_
    all_goals ring
  · simp only [sqrD, List.getElem?_cons_zero, List.getElem?_cons_succ, Option.some.injEq] at h
    subst h
    rw [show colV q 22 = u64 (colV q 21 % 2 ^ 32 * 0x3D1 + colV q 2 % 2 ^ 26 + 2 ^ 32 * (0x3D1 * 0)) from rfl, u64, Env.sum]
    simp only [Env.prods, Env.shrs, Env.words, f_low _ _ 26 (by norm_num), imm_val _ _ (show 0x3D10 < 2 ^ 32 by norm_num),
      imm_val _ _ (show 0x400 < 2 ^ 32 by norm_num), imm_val _ _ (show 0x4000 < 2 ^ 32 by norm_num),
      imm_val _ _ (show 0x3D1 < 2 ^ 32 by norm_num), imm_val _ _ (show 0x40 < 2 ^ 32 by norm_num)]
    simp only [Env.f, Nat.reduceMul, Nat.mul_zero, Nat.add_zero, colV_hi, q2]
    all_goals refine congrArg (· % 2 ^ 64) ?_
    all_goals ring
  · simp only [sqrD, List.getElem?_cons_zero, List.getElem?_cons_succ, Option.some.injEq] at h
    subst h
    rw [show colV q 23 = u64 (colV q 21 % 2 ^ 32 * 0x3D1 + colV q 2 % 2 ^ 26 + 2 ^ 32 * (0x3D1 * (colV q 21 / 2 ^ 32))) from rfl, u64, Env.sum]
    simp only [Env.prods, Env.shrs, Env.words, f_low _ _ 26 (by norm_num), imm_val _ _ (show 0x3D10 < 2 ^ 32 by norm_num),
      imm_val _ _ (show 0x400 < 2 ^ 32 by norm_num), imm_val _ _ (show 0x4000 < 2 ^ 32 by norm_num),
      imm_val _ _ (show 0x3D1 < 2 ^ 32 by norm_num), imm_val _ _ (show 0x40 < 2 ^ 32 by norm_num)]
    simp only [Env.f, Nat.reduceMul, Nat.mul_zero, Nat.add_zero, colV_hi, q2]
    all_goals refine congrArg (· % 2 ^ 64) ?_
    all_goals ring
  · simp only [sqrD, List.getElem?_cons_zero, List.getElem?_cons_succ, Option.some.injEq] at h
    subst h
    rw [show colV q 24 = u64 (colV q 23 >>> 26 + colV q 21 % 2 ^ 32 * 0x40 + colV q 4 % 2 ^ 26 + 2 ^ 32 * (0x40 * 0)) from rfl, u64, Env.sum]
    simp only [Env.prods, Env.shrs, Env.words, f_low _ _ 26 (by norm_num), imm_val _ _ (show 0x3D10 < 2 ^ 32 by norm_num),
      imm_val _ _ (show 0x400 < 2 ^ 32 by norm_num), imm_val _ _ (show 0x4000 < 2 ^ 32 by norm_num),
      imm_val _ _ (show 0x3D1 < 2 ^ 32 by norm_num), imm_val _ _ (show 0x40 < 2 ^ 32 by norm_num)]
    simp only [Env.f, Nat.reduceMul, Nat.mul_zero, Nat.add_zero, colV_hi, q4]
    all_goals refine congrArg (· % 2 ^ 64) ?_
    all_goals ring
  · simp only [sqrD, List.getElem?_cons_zero, List.getElem?_cons_succ, Option.some.injEq] at h
    subst h
    rw [show colV q 25 = u64 (colV q 23 >>> 26 + colV q 21 % 2 ^ 32 * 0x40 + colV q 4 % 2 ^ 26 + 2 ^ 32 * (0x40 * (colV q 21 / 2 ^ 32))) from rfl, u64, Env.sum]
    simp only [Env.prods, Env.shrs, Env.words, f_low _ _ 26 (by norm_num), imm_val _ _ (show 0x3D10 < 2 ^ 32 by norm_num),
      imm_val _ _ (show 0x400 < 2 ^ 32 by norm_num), imm_val _ _ (show 0x4000 < 2 ^ 32 by norm_num),
      imm_val _ _ (show 0x3D1 < 2 ^ 32 by norm_num), imm_val _ _ (show 0x40 < 2 ^ 32 by norm_num)]
    simp only [Env.f, Nat.reduceMul, Nat.mul_zero, Nat.add_zero, colV_hi, q4]
    all_goals refine congrArg (· % 2 ^ 64) ?_
    all_goals ring

end Secp.Model.Arm
