import Verif.Proof.Asm.Exec
import Verif.Proof.Asm.Raw

/-!
# The four statements as sequences of groups
-/

namespace Secp.Model.Asm
open Secp.Model

/-- `reduceA` in groups -/
def reduceAMacs : List Mac := [
  .mov (.mem 32 .rsi) (.reg .r11), .mov (.mem 40 .rsi) (.reg .r12), .mov (.mem 48 .rsi) (.reg .r13),
  .mov (.mem 56 .rsi) (.reg .r14), .mov (.mem 0 .rsi) (.reg .r8), .zero .r9, .zero .r10,
  .muladdFast .r8 .r9 (.op 8) .r11, .mov (.reg .r8) (.op 0), .zero .r8, .sumaddFast .r9 .r10 (.mem 8 .rsi),
  .muladd .r9 .r10 .r8 (.op 8) .r12, .muladd .r9 .r10 .r8 (.op 9) .r11, .mov (.reg .r9) (.op 1), .zero .r9,
  .sumadd .r10 .r8 .r9 (.mem 16 .rsi), .muladd .r10 .r8 .r9 (.op 8) .r13, .muladd .r10 .r8 .r9 (.op 9) .r12,
  .sumadd .r10 .r8 .r9 (.reg .r11), .mov (.reg .r10) (.op 2), .zero .r10, .sumadd .r8 .r9 .r10 (.mem 24 .rsi),
  .muladd .r8 .r9 .r10 (.op 8) .r14, .muladd .r8 .r9 .r10 (.op 9) .r13, .sumadd .r8 .r9 .r10 (.reg .r12),
  .mov (.reg .r8) (.op 3), .zero .r8, .muladd .r9 .r10 .r8 (.op 9) .r14, .sumadd .r9 .r10 .r8 (.reg .r13),
  .mov (.reg .r9) (.op 4), .sumaddFast .r10 .r8 (.reg .r14), .mov (.reg .r10) (.op 5), .mov (.reg .r8) (.op 6)]

theorem reduceA_macs : reduceA.code = reduceAMacs.flatMap Mac.code := by decide

theorem reduceA_macs_ok : reduceAMacs.all Mac.ok = true := by decide

/-- `reduceB` in groups -/
def reduceBMacs : List Mac := [
  .mov (.op 9) (.reg .r11), .mov (.op 10) (.reg .r12), .mov (.op 11) (.reg .r13), .mov (.op 5) (.reg .r8),
  .zero .r9, .zero .r10, .muladdFast .r8 .r9 (.op 12) .r11, .mov (.reg .r8) (.op 0), .zero .r8,
  .sumaddFast .r9 .r10 (.op 6), .muladd .r9 .r10 .r8 (.op 12) .r12, .muladd .r9 .r10 .r8 (.op 13) .r11,
  .mov (.reg .r9) (.op 1), .zero .r9, .sumadd .r10 .r8 .r9 (.op 7), .muladd .r10 .r8 .r9 (.op 12) .r13,
  .muladd .r10 .r8 .r9 (.op 13) .r12, .sumadd .r10 .r8 .r9 (.reg .r11), .mov (.reg .r10) (.op 2),
  .sumaddFast .r8 .r9 (.op 8), .muladdFast .r8 .r9 (.op 13) .r13, .sumaddFast .r8 .r9 (.reg .r12),
  .mov (.reg .r8) (.op 3), .add .r9 (.reg .r13), .mov (.reg .r9) (.op 4)]

theorem reduceB_macs : reduceB.code = reduceBMacs.flatMap Mac.code := by decide

theorem reduceB_macs_ok : reduceBMacs.all Mac.ok = true := by decide

/-- `reduceC` in groups -/
def reduceCMacs : List Mac := [
  .mov (.op 5) (.reg .r10), .mul (.op 7) .r10, .sumaddFast .rax .rdx (.op 1), .mov (.reg .rax) (.memOp 0 6),
  .mov (.reg .rdx) (.reg .r8), .zero .r9, .sumaddFast .r8 .r9 (.op 2), .muladdFast .r8 .r9 (.op 8) .r10,
  .mov (.reg .r8) (.memOp 8 6), .zero .r8, .sumaddFast .r9 .r8 (.reg .r10), .sumaddFast .r9 .r8 (.op 3),
  .mov (.reg .r9) (.memOp 16 6), .zero .r9, .sumaddFast .r8 .r9 (.op 4), .mov (.reg .r8) (.memOp 24 6),
  .mov (.reg .r9) (.op 0)]

theorem reduceC_macs : reduceC.code = reduceCMacs.flatMap Mac.code := by decide

theorem reduceC_macs_ok : reduceCMacs.all Mac.ok = true := by decide

/-- `mul512` in groups -/
def mul512Macs : List Mac := [
  .mov (.mem 0 .rdi) (.reg .r15), .mov (.mem 8 .rdi) (.reg .rbx), .mov (.mem 16 .rdi) (.reg .rcx),
  .mov (.mem 0 .rdx) (.reg .r11), .mov (.mem 8 .rdx) (.reg .r12), .mov (.mem 16 .rdx) (.reg .r13),
  .mov (.mem 24 .rdx) (.reg .r14), .mul (.reg .r15) .r11, .mov (.reg .rax) (.mem 0 .rsi),
  .mov (.reg .rdx) (.reg .r8), .zero .r9, .zero .r10, .muladd .r8 .r9 .r10 (.reg .r15) .r12,
  .muladd .r8 .r9 .r10 (.reg .rbx) .r11, .mov (.reg .r8) (.mem 8 .rsi), .zero .r8,
  .muladd .r9 .r10 .r8 (.reg .r15) .r13, .muladd .r9 .r10 .r8 (.reg .rbx) .r12,
  .muladd .r9 .r10 .r8 (.reg .rcx) .r11, .mov (.reg .r9) (.mem 16 .rsi), .zero .r9,
  .muladd .r10 .r8 .r9 (.reg .r15) .r14, .mov (.mem 24 .rdi) (.reg .r15), .muladd .r10 .r8 .r9 (.reg .rbx) .r13,
  .muladd .r10 .r8 .r9 (.reg .rcx) .r12, .muladd .r10 .r8 .r9 (.reg .r15) .r11, .mov (.reg .r10) (.mem 24 .rsi),
  .zero .r10, .muladd .r8 .r9 .r10 (.reg .rbx) .r14, .muladd .r8 .r9 .r10 (.reg .rcx) .r13,
  .muladd .r8 .r9 .r10 (.reg .r15) .r12, .mov (.reg .r8) (.mem 32 .rsi), .zero .r8,
  .muladd .r9 .r10 .r8 (.reg .rcx) .r14, .muladd .r9 .r10 .r8 (.reg .r15) .r13, .mov (.reg .r9) (.mem 40 .rsi),
  .muladdFast .r10 .r8 (.reg .r15) .r14, .mov (.reg .r10) (.mem 48 .rsi), .mov (.reg .r8) (.mem 56 .rsi)]

theorem mul512_macs : mul512 = mul512Macs.flatMap Mac.code := by decide

theorem mul512_macs_ok : mul512Macs.all Mac.ok = true := by decide

theorem reduceA_eval (rax rbx rcx rdx rsi rdi rbp rsp r8 r9 r10 r11 r12 r13 r14 r15 : ℕ) (mem cell : ℕ → ℕ)
    (h8 : cell 8 = scNC0) (h9 : cell 9 = scNC1) (m : MS)
    (hm : m = ⟨rax, rbx, rcx, rdx, rsi, rdi, rbp, rsp, r8, r9, r10, r11, r12, r13, r14, r15, mem, cell⟩) :
    let r := reduceAMacs.foldl Mac.exec m
    let q := Sc4.redA (u512At mem rsi)
    r.cell 0 = q.m0 ∧ r.cell 1 = q.m1 ∧ r.cell 2 = q.m2 ∧ r.cell 3 = q.m3 ∧ r.cell 4 = q.m4 ∧ r.cell 5 = q.m5 ∧
      r.cell 6 = q.m6 := by
  intro r q
  obtain ⟨q', hq⟩ : ∃ q', q' = q := ⟨_, rfl⟩
  rw [← hq]
  unfold q Sc4.redA at hq
  clear q
  rw [← h8, ← h9] at hq
  extract_lets xn0 xn1 xn2 xn3 c0 c1 xm0 c2 c3 c4 c5 xm1 c6 c7 c8 c9 c10 xm2 c11 c12 c13 c14 c15 xm3 c16 c17 c18 xm4
        c19 c20 xm5 c21 xm6 at hq
  have ec0 : c0 = ⟨(u512At mem rsi).l0, 0, 0⟩ := rfl
  have ec1 : c1 = c0.muladdFast xn0 (cell 8) := rfl
  have ec2 : c2 = c1.extractFast := rfl
  have ec3 : c3 = c2.sumaddFast (u512At mem rsi).l1 := rfl
  have ec4 : c4 = c3.muladd 64 xn1 (cell 8) := rfl
  have ec5 : c5 = c4.muladd 64 xn0 (cell 9) := rfl
  have ec6 : c6 = c5.extract := rfl
  have ec7 : c7 = c6.sumadd 64 (u512At mem rsi).l2 := rfl
  have ec8 : c8 = c7.muladd 64 xn2 (cell 8) := rfl
  have ec9 : c9 = c8.muladd 64 xn1 (cell 9) := rfl
  have ec10 : c10 = c9.sumadd 64 xn0 := rfl
  have ec11 : c11 = c10.extract := rfl
  have ec12 : c12 = c11.sumadd 64 (u512At mem rsi).l3 := rfl
  have ec13 : c13 = c12.muladd 64 xn3 (cell 8) := rfl
  have ec14 : c14 = c13.muladd 64 xn2 (cell 9) := rfl
  have ec15 : c15 = c14.sumadd 64 xn1 := rfl
  have ec16 : c16 = c15.extract := rfl
  have ec17 : c17 = c16.muladd 64 xn3 (cell 9) := rfl
  have ec18 : c18 = c17.sumadd 64 xn2 := rfl
  have ec19 : c19 = c18.extract := rfl
  have ec20 : c20 = c19.sumaddFast xn3 := rfl
  have ec21 : c21 = c20.extractFast := rfl
  clear_value c0
  clear_value c1
  clear_value c2
  clear_value c3
  clear_value c4
  clear_value c5
  clear_value c6
  clear_value c7
  clear_value c8
  clear_value c9
  clear_value c10
  clear_value c11
  clear_value c12
  clear_value c13
  clear_value c14
  clear_value c15
  clear_value c16
  clear_value c17
  clear_value c18
  clear_value c19
  clear_value c20
  clear_value c21
  have s0 : Mac.exec ⟨rax, rbx, rcx, rdx, rsi, rdi, rbp, rsp, r8, r9, r10, r11, r12, r13, r14, r15, mem, cell⟩ (.mov
        (.mem 32 .rsi) (.reg .r11)) =
      ⟨rax, rbx, rcx, rdx, rsi, rdi, rbp, rsp, r8, r9, r10, mem (rsi + 32), r12, r13, r14, r15, mem, cell⟩ := rfl
  have s1 : Mac.exec ⟨rax, rbx, rcx, rdx, rsi, rdi, rbp, rsp, r8, r9, r10, mem (rsi + 32), r12, r13, r14, r15, mem,
        cell⟩ (.mov (.mem 40 .rsi) (.reg .r12)) =
      ⟨rax, rbx, rcx, rdx, rsi, rdi, rbp, rsp, r8, r9, r10, mem (rsi + 32), mem (rsi + 40), r13, r14, r15, mem, cell⟩
        := rfl
  have s2 : Mac.exec ⟨rax, rbx, rcx, rdx, rsi, rdi, rbp, rsp, r8, r9, r10, mem (rsi + 32), mem (rsi + 40), r13, r14,
        r15, mem, cell⟩ (.mov (.mem 48 .rsi) (.reg .r13)) =
      ⟨rax, rbx, rcx, rdx, rsi, rdi, rbp, rsp, r8, r9, r10, mem (rsi + 32), mem (rsi + 40), mem (rsi + 48), r14, r15,
        mem, cell⟩ := rfl
  have s3 : Mac.exec ⟨rax, rbx, rcx, rdx, rsi, rdi, rbp, rsp, r8, r9, r10, mem (rsi + 32), mem (rsi + 40), mem (rsi +
        48), r14, r15, mem, cell⟩ (.mov (.mem 56 .rsi) (.reg .r14)) =
      ⟨rax, rbx, rcx, rdx, rsi, rdi, rbp, rsp, r8, r9, r10, mem (rsi + 32), mem (rsi + 40), mem (rsi + 48), mem (rsi
        + 56), r15, mem, cell⟩ := rfl
  have s4 : Mac.exec ⟨rax, rbx, rcx, rdx, rsi, rdi, rbp, rsp, r8, r9, r10, mem (rsi + 32), mem (rsi + 40), mem (rsi +
        48), mem (rsi + 56), r15, mem, cell⟩ (.mov (.mem 0 .rsi) (.reg .r8)) =
      ⟨rax, rbx, rcx, rdx, rsi, rdi, rbp, rsp, mem (rsi + 0), r9, r10, mem (rsi + 32), mem (rsi + 40), mem (rsi +
        48), mem (rsi + 56), r15, mem, cell⟩ := rfl
  have s5 : Mac.exec ⟨rax, rbx, rcx, rdx, rsi, rdi, rbp, rsp, mem (rsi + 0), r9, r10, mem (rsi + 32), mem (rsi + 40),
        mem (rsi + 48), mem (rsi + 56), r15, mem, cell⟩ (.zero .r9) =
      ⟨rax, rbx, rcx, rdx, rsi, rdi, rbp, rsp, mem (rsi + 0), 0, r10, mem (rsi + 32), mem (rsi + 40), mem (rsi + 48),
        mem (rsi + 56), r15, mem, cell⟩ := rfl
  have s6 : Mac.exec ⟨rax, rbx, rcx, rdx, rsi, rdi, rbp, rsp, mem (rsi + 0), 0, r10, mem (rsi + 32), mem (rsi + 40),
        mem (rsi + 48), mem (rsi + 56), r15, mem, cell⟩ (.zero .r10) =
      ⟨rax, rbx, rcx, rdx, rsi, rdi, rbp, rsp, mem (rsi + 0), 0, 0, mem (rsi + 32), mem (rsi + 40), mem (rsi + 48),
        mem (rsi + 56), r15, mem, cell⟩ := rfl
  have s7 : Mac.exec ⟨rax, rbx, rcx, rdx, rsi, rdi, rbp, rsp, mem (rsi + 0), 0, 0, mem (rsi + 32), mem (rsi + 40),
        mem (rsi + 48), mem (rsi + 56), r15, mem, cell⟩ (.muladdFast .r8 .r9 (.op 8) .r11) =
      ⟨(mem (rsi + 32)) * (cell 8) % 2 ^ 64, rbx, rcx, (mem (rsi + 32)) * (cell 8) / 2 ^ 64, rsi, rdi, rbp, rsp,
        c1.c0, c1.c1, 0, mem (rsi + 32), mem (rsi + 40), mem (rsi + 48), mem (rsi + 56), r15, mem, cell⟩ := by
    first
    | (rw [ec1]; rfl)
    | (rw [ec1, ec0]; rfl)
  have s8 : Mac.exec ⟨(mem (rsi + 32)) * (cell 8) % 2 ^ 64, rbx, rcx, (mem (rsi + 32)) * (cell 8) / 2 ^ 64, rsi, rdi,
        rbp, rsp, c1.c0, c1.c1, 0, mem (rsi + 32), mem (rsi + 40), mem (rsi + 48), mem (rsi + 56), r15, mem, cell⟩
        (.mov (.reg .r8) (.op 0)) =
      ⟨(mem (rsi + 32)) * (cell 8) % 2 ^ 64, rbx, rcx, (mem (rsi + 32)) * (cell 8) / 2 ^ 64, rsi, rdi, rbp, rsp,
        c1.c0, c1.c1, 0, mem (rsi + 32), mem (rsi + 40), mem (rsi + 48), mem (rsi + 56), r15, mem, Function.update
        cell 0 c1.c0⟩ := rfl
  have s9 : Mac.exec ⟨(mem (rsi + 32)) * (cell 8) % 2 ^ 64, rbx, rcx, (mem (rsi + 32)) * (cell 8) / 2 ^ 64, rsi, rdi,
        rbp, rsp, c1.c0, c1.c1, 0, mem (rsi + 32), mem (rsi + 40), mem (rsi + 48), mem (rsi + 56), r15, mem,
        Function.update cell 0 c1.c0⟩ (.zero .r8) =
      ⟨(mem (rsi + 32)) * (cell 8) % 2 ^ 64, rbx, rcx, (mem (rsi + 32)) * (cell 8) / 2 ^ 64, rsi, rdi, rbp, rsp, 0,
        c1.c1, 0, mem (rsi + 32), mem (rsi + 40), mem (rsi + 48), mem (rsi + 56), r15, mem, Function.update cell 0
        c1.c0⟩ := rfl
  have s10 : Mac.exec ⟨(mem (rsi + 32)) * (cell 8) % 2 ^ 64, rbx, rcx, (mem (rsi + 32)) * (cell 8) / 2 ^ 64, rsi,
        rdi, rbp, rsp, 0, c1.c1, 0, mem (rsi + 32), mem (rsi + 40), mem (rsi + 48), mem (rsi + 56), r15, mem,
        Function.update cell 0 c1.c0⟩ (.sumaddFast .r9 .r10 (.mem 8 .rsi)) =
      ⟨(mem (rsi + 32)) * (cell 8) % 2 ^ 64, rbx, rcx, (mem (rsi + 32)) * (cell 8) / 2 ^ 64, rsi, rdi, rbp, rsp, 0,
        c3.c0, c3.c1, mem (rsi + 32), mem (rsi + 40), mem (rsi + 48), mem (rsi + 56), r15, mem, Function.update cell
        0 c1.c0⟩ := by
    first
    | (rw [ec3]; rfl)
    | (rw [ec3, ec2]; rfl)
    | (rw [ec3, ec2, ec1]; rfl)
    | (rw [ec3, ec2, ec1, ec0]; rfl)
  have s11 : Mac.exec ⟨(mem (rsi + 32)) * (cell 8) % 2 ^ 64, rbx, rcx, (mem (rsi + 32)) * (cell 8) / 2 ^ 64, rsi,
        rdi, rbp, rsp, 0, c3.c0, c3.c1, mem (rsi + 32), mem (rsi + 40), mem (rsi + 48), mem (rsi + 56), r15, mem,
        Function.update cell 0 c1.c0⟩ (.muladd .r9 .r10 .r8 (.op 8) .r12) =
      ⟨(mem (rsi + 40)) * (cell 8) % 2 ^ 64, rbx, rcx, (mem (rsi + 40)) * (cell 8) / 2 ^ 64, rsi, rdi, rbp, rsp,
        c4.c2, c4.c0, c4.c1, mem (rsi + 32), mem (rsi + 40), mem (rsi + 48), mem (rsi + 56), r15, mem,
        Function.update cell 0 c1.c0⟩ := by
    first
    | (rw [ec4]; rfl)
    | (rw [ec4, ec3]; rfl)
    | (rw [ec4, ec3, ec2]; rfl)
    | (rw [ec4, ec3, ec2, ec1]; rfl)
    | (rw [ec4, ec3, ec2, ec1, ec0]; rfl)
  have s12 : Mac.exec ⟨(mem (rsi + 40)) * (cell 8) % 2 ^ 64, rbx, rcx, (mem (rsi + 40)) * (cell 8) / 2 ^ 64, rsi,
        rdi, rbp, rsp, c4.c2, c4.c0, c4.c1, mem (rsi + 32), mem (rsi + 40), mem (rsi + 48), mem (rsi + 56), r15, mem,
        Function.update cell 0 c1.c0⟩ (.muladd .r9 .r10 .r8 (.op 9) .r11) =
      ⟨(mem (rsi + 32)) * (cell 9) % 2 ^ 64, rbx, rcx, (mem (rsi + 32)) * (cell 9) / 2 ^ 64, rsi, rdi, rbp, rsp,
        c5.c2, c5.c0, c5.c1, mem (rsi + 32), mem (rsi + 40), mem (rsi + 48), mem (rsi + 56), r15, mem,
        Function.update cell 0 c1.c0⟩ := by
    first
    | (rw [ec5]; rfl)
    | (rw [ec5, ec4]; rfl)
    | (rw [ec5, ec4, ec3]; rfl)
    | (rw [ec5, ec4, ec3, ec2]; rfl)
    | (rw [ec5, ec4, ec3, ec2, ec1]; rfl)
    | (rw [ec5, ec4, ec3, ec2, ec1, ec0]; rfl)
  have s13 : Mac.exec ⟨(mem (rsi + 32)) * (cell 9) % 2 ^ 64, rbx, rcx, (mem (rsi + 32)) * (cell 9) / 2 ^ 64, rsi,
        rdi, rbp, rsp, c5.c2, c5.c0, c5.c1, mem (rsi + 32), mem (rsi + 40), mem (rsi + 48), mem (rsi + 56), r15, mem,
        Function.update cell 0 c1.c0⟩ (.mov (.reg .r9) (.op 1)) =
      ⟨(mem (rsi + 32)) * (cell 9) % 2 ^ 64, rbx, rcx, (mem (rsi + 32)) * (cell 9) / 2 ^ 64, rsi, rdi, rbp, rsp,
        c5.c2, c5.c0, c5.c1, mem (rsi + 32), mem (rsi + 40), mem (rsi + 48), mem (rsi + 56), r15, mem,
        Function.update (Function.update cell 0 c1.c0) 1 c5.c0⟩ := rfl
  have s14 : Mac.exec ⟨(mem (rsi + 32)) * (cell 9) % 2 ^ 64, rbx, rcx, (mem (rsi + 32)) * (cell 9) / 2 ^ 64, rsi,
        rdi, rbp, rsp, c5.c2, c5.c0, c5.c1, mem (rsi + 32), mem (rsi + 40), mem (rsi + 48), mem (rsi + 56), r15, mem,
        Function.update (Function.update cell 0 c1.c0) 1 c5.c0⟩ (.zero .r9) =
      ⟨(mem (rsi + 32)) * (cell 9) % 2 ^ 64, rbx, rcx, (mem (rsi + 32)) * (cell 9) / 2 ^ 64, rsi, rdi, rbp, rsp,
        c5.c2, 0, c5.c1, mem (rsi + 32), mem (rsi + 40), mem (rsi + 48), mem (rsi + 56), r15, mem, Function.update
        (Function.update cell 0 c1.c0) 1 c5.c0⟩ := rfl
  have s15 : Mac.exec ⟨(mem (rsi + 32)) * (cell 9) % 2 ^ 64, rbx, rcx, (mem (rsi + 32)) * (cell 9) / 2 ^ 64, rsi,
        rdi, rbp, rsp, c5.c2, 0, c5.c1, mem (rsi + 32), mem (rsi + 40), mem (rsi + 48), mem (rsi + 56), r15, mem,
        Function.update (Function.update cell 0 c1.c0) 1 c5.c0⟩ (.sumadd .r10 .r8 .r9 (.mem 16 .rsi)) =
      ⟨(mem (rsi + 32)) * (cell 9) % 2 ^ 64, rbx, rcx, (mem (rsi + 32)) * (cell 9) / 2 ^ 64, rsi, rdi, rbp, rsp,
        c7.c1, c7.c2, c7.c0, mem (rsi + 32), mem (rsi + 40), mem (rsi + 48), mem (rsi + 56), r15, mem,
        Function.update (Function.update cell 0 c1.c0) 1 c5.c0⟩ := by
    first
    | (rw [ec7]; rfl)
    | (rw [ec7, ec6]; rfl)
    | (rw [ec7, ec6, ec5]; rfl)
    | (rw [ec7, ec6, ec5, ec4]; rfl)
    | (rw [ec7, ec6, ec5, ec4, ec3]; rfl)
    | (rw [ec7, ec6, ec5, ec4, ec3, ec2]; rfl)
  have s16 : Mac.exec ⟨(mem (rsi + 32)) * (cell 9) % 2 ^ 64, rbx, rcx, (mem (rsi + 32)) * (cell 9) / 2 ^ 64, rsi,
        rdi, rbp, rsp, c7.c1, c7.c2, c7.c0, mem (rsi + 32), mem (rsi + 40), mem (rsi + 48), mem (rsi + 56), r15, mem,
        Function.update (Function.update cell 0 c1.c0) 1 c5.c0⟩ (.muladd .r10 .r8 .r9 (.op 8) .r13) =
      ⟨(mem (rsi + 48)) * (cell 8) % 2 ^ 64, rbx, rcx, (mem (rsi + 48)) * (cell 8) / 2 ^ 64, rsi, rdi, rbp, rsp,
        c8.c1, c8.c2, c8.c0, mem (rsi + 32), mem (rsi + 40), mem (rsi + 48), mem (rsi + 56), r15, mem,
        Function.update (Function.update cell 0 c1.c0) 1 c5.c0⟩ := by
    first
    | (rw [ec8]; rfl)
    | (rw [ec8, ec7]; rfl)
    | (rw [ec8, ec7, ec6]; rfl)
    | (rw [ec8, ec7, ec6, ec5]; rfl)
    | (rw [ec8, ec7, ec6, ec5, ec4]; rfl)
    | (rw [ec8, ec7, ec6, ec5, ec4, ec3]; rfl)
  have s17 : Mac.exec ⟨(mem (rsi + 48)) * (cell 8) % 2 ^ 64, rbx, rcx, (mem (rsi + 48)) * (cell 8) / 2 ^ 64, rsi,
        rdi, rbp, rsp, c8.c1, c8.c2, c8.c0, mem (rsi + 32), mem (rsi + 40), mem (rsi + 48), mem (rsi + 56), r15, mem,
        Function.update (Function.update cell 0 c1.c0) 1 c5.c0⟩ (.muladd .r10 .r8 .r9 (.op 9) .r12) =
      ⟨(mem (rsi + 40)) * (cell 9) % 2 ^ 64, rbx, rcx, (mem (rsi + 40)) * (cell 9) / 2 ^ 64, rsi, rdi, rbp, rsp,
        c9.c1, c9.c2, c9.c0, mem (rsi + 32), mem (rsi + 40), mem (rsi + 48), mem (rsi + 56), r15, mem,
        Function.update (Function.update cell 0 c1.c0) 1 c5.c0⟩ := by
    first
    | (rw [ec9]; rfl)
    | (rw [ec9, ec8]; rfl)
    | (rw [ec9, ec8, ec7]; rfl)
    | (rw [ec9, ec8, ec7, ec6]; rfl)
    | (rw [ec9, ec8, ec7, ec6, ec5]; rfl)
    | (rw [ec9, ec8, ec7, ec6, ec5, ec4]; rfl)
  have s18 : Mac.exec ⟨(mem (rsi + 40)) * (cell 9) % 2 ^ 64, rbx, rcx, (mem (rsi + 40)) * (cell 9) / 2 ^ 64, rsi,
        rdi, rbp, rsp, c9.c1, c9.c2, c9.c0, mem (rsi + 32), mem (rsi + 40), mem (rsi + 48), mem (rsi + 56), r15, mem,
        Function.update (Function.update cell 0 c1.c0) 1 c5.c0⟩ (.sumadd .r10 .r8 .r9 (.reg .r11)) =
      ⟨(mem (rsi + 40)) * (cell 9) % 2 ^ 64, rbx, rcx, (mem (rsi + 40)) * (cell 9) / 2 ^ 64, rsi, rdi, rbp, rsp,
        c10.c1, c10.c2, c10.c0, mem (rsi + 32), mem (rsi + 40), mem (rsi + 48), mem (rsi + 56), r15, mem,
        Function.update (Function.update cell 0 c1.c0) 1 c5.c0⟩ := by
    first
    | (rw [ec10]; rfl)
    | (rw [ec10, ec9]; rfl)
    | (rw [ec10, ec9, ec8]; rfl)
    | (rw [ec10, ec9, ec8, ec7]; rfl)
    | (rw [ec10, ec9, ec8, ec7, ec6]; rfl)
    | (rw [ec10, ec9, ec8, ec7, ec6, ec5]; rfl)
  have s19 : Mac.exec ⟨(mem (rsi + 40)) * (cell 9) % 2 ^ 64, rbx, rcx, (mem (rsi + 40)) * (cell 9) / 2 ^ 64, rsi,
        rdi, rbp, rsp, c10.c1, c10.c2, c10.c0, mem (rsi + 32), mem (rsi + 40), mem (rsi + 48), mem (rsi + 56), r15,
        mem, Function.update (Function.update cell 0 c1.c0) 1 c5.c0⟩ (.mov (.reg .r10) (.op 2)) =
      ⟨(mem (rsi + 40)) * (cell 9) % 2 ^ 64, rbx, rcx, (mem (rsi + 40)) * (cell 9) / 2 ^ 64, rsi, rdi, rbp, rsp,
        c10.c1, c10.c2, c10.c0, mem (rsi + 32), mem (rsi + 40), mem (rsi + 48), mem (rsi + 56), r15, mem,
        Function.update (Function.update (Function.update cell 0 c1.c0) 1 c5.c0) 2 c10.c0⟩ := rfl
  have s20 : Mac.exec ⟨(mem (rsi + 40)) * (cell 9) % 2 ^ 64, rbx, rcx, (mem (rsi + 40)) * (cell 9) / 2 ^ 64, rsi,
        rdi, rbp, rsp, c10.c1, c10.c2, c10.c0, mem (rsi + 32), mem (rsi + 40), mem (rsi + 48), mem (rsi + 56), r15,
        mem, Function.update (Function.update (Function.update cell 0 c1.c0) 1 c5.c0) 2 c10.c0⟩ (.zero .r10) =
      ⟨(mem (rsi + 40)) * (cell 9) % 2 ^ 64, rbx, rcx, (mem (rsi + 40)) * (cell 9) / 2 ^ 64, rsi, rdi, rbp, rsp,
        c10.c1, c10.c2, 0, mem (rsi + 32), mem (rsi + 40), mem (rsi + 48), mem (rsi + 56), r15, mem, Function.update
        (Function.update (Function.update cell 0 c1.c0) 1 c5.c0) 2 c10.c0⟩ := rfl
  have s21 : Mac.exec ⟨(mem (rsi + 40)) * (cell 9) % 2 ^ 64, rbx, rcx, (mem (rsi + 40)) * (cell 9) / 2 ^ 64, rsi,
        rdi, rbp, rsp, c10.c1, c10.c2, 0, mem (rsi + 32), mem (rsi + 40), mem (rsi + 48), mem (rsi + 56), r15, mem,
        Function.update (Function.update (Function.update cell 0 c1.c0) 1 c5.c0) 2 c10.c0⟩ (.sumadd .r8 .r9 .r10
        (.mem 24 .rsi)) =
      ⟨(mem (rsi + 40)) * (cell 9) % 2 ^ 64, rbx, rcx, (mem (rsi + 40)) * (cell 9) / 2 ^ 64, rsi, rdi, rbp, rsp,
        c12.c0, c12.c1, c12.c2, mem (rsi + 32), mem (rsi + 40), mem (rsi + 48), mem (rsi + 56), r15, mem,
        Function.update (Function.update (Function.update cell 0 c1.c0) 1 c5.c0) 2 c10.c0⟩ := by
    first
    | (rw [ec12]; rfl)
    | (rw [ec12, ec11]; rfl)
    | (rw [ec12, ec11, ec10]; rfl)
    | (rw [ec12, ec11, ec10, ec9]; rfl)
    | (rw [ec12, ec11, ec10, ec9, ec8]; rfl)
    | (rw [ec12, ec11, ec10, ec9, ec8, ec7]; rfl)
  have s22 : Mac.exec ⟨(mem (rsi + 40)) * (cell 9) % 2 ^ 64, rbx, rcx, (mem (rsi + 40)) * (cell 9) / 2 ^ 64, rsi,
        rdi, rbp, rsp, c12.c0, c12.c1, c12.c2, mem (rsi + 32), mem (rsi + 40), mem (rsi + 48), mem (rsi + 56), r15,
        mem, Function.update (Function.update (Function.update cell 0 c1.c0) 1 c5.c0) 2 c10.c0⟩ (.muladd .r8 .r9 .r10
        (.op 8) .r14) =
      ⟨(mem (rsi + 56)) * (cell 8) % 2 ^ 64, rbx, rcx, (mem (rsi + 56)) * (cell 8) / 2 ^ 64, rsi, rdi, rbp, rsp,
        c13.c0, c13.c1, c13.c2, mem (rsi + 32), mem (rsi + 40), mem (rsi + 48), mem (rsi + 56), r15, mem,
        Function.update (Function.update (Function.update cell 0 c1.c0) 1 c5.c0) 2 c10.c0⟩ := by
    first
    | (rw [ec13]; rfl)
    | (rw [ec13, ec12]; rfl)
    | (rw [ec13, ec12, ec11]; rfl)
    | (rw [ec13, ec12, ec11, ec10]; rfl)
    | (rw [ec13, ec12, ec11, ec10, ec9]; rfl)
    | (rw [ec13, ec12, ec11, ec10, ec9, ec8]; rfl)
  have s23 : Mac.exec ⟨(mem (rsi + 56)) * (cell 8) % 2 ^ 64, rbx, rcx, (mem (rsi + 56)) * (cell 8) / 2 ^ 64, rsi,
        rdi, rbp, rsp, c13.c0, c13.c1, c13.c2, mem (rsi + 32), mem (rsi + 40), mem (rsi + 48), mem (rsi + 56), r15,
        mem, Function.update (Function.update (Function.update cell 0 c1.c0) 1 c5.c0) 2 c10.c0⟩ (.muladd .r8 .r9 .r10
        (.op 9) .r13) =
      ⟨(mem (rsi + 48)) * (cell 9) % 2 ^ 64, rbx, rcx, (mem (rsi + 48)) * (cell 9) / 2 ^ 64, rsi, rdi, rbp, rsp,
        c14.c0, c14.c1, c14.c2, mem (rsi + 32), mem (rsi + 40), mem (rsi + 48), mem (rsi + 56), r15, mem,
        Function.update (Function.update (Function.update cell 0 c1.c0) 1 c5.c0) 2 c10.c0⟩ := by
    first
    | (rw [ec14]; rfl)
    | (rw [ec14, ec13]; rfl)
    | (rw [ec14, ec13, ec12]; rfl)
    | (rw [ec14, ec13, ec12, ec11]; rfl)
    | (rw [ec14, ec13, ec12, ec11, ec10]; rfl)
    | (rw [ec14, ec13, ec12, ec11, ec10, ec9]; rfl)
  have s24 : Mac.exec ⟨(mem (rsi + 48)) * (cell 9) % 2 ^ 64, rbx, rcx, (mem (rsi + 48)) * (cell 9) / 2 ^ 64, rsi,
        rdi, rbp, rsp, c14.c0, c14.c1, c14.c2, mem (rsi + 32), mem (rsi + 40), mem (rsi + 48), mem (rsi + 56), r15,
        mem, Function.update (Function.update (Function.update cell 0 c1.c0) 1 c5.c0) 2 c10.c0⟩ (.sumadd .r8 .r9 .r10
        (.reg .r12)) =
      ⟨(mem (rsi + 48)) * (cell 9) % 2 ^ 64, rbx, rcx, (mem (rsi + 48)) * (cell 9) / 2 ^ 64, rsi, rdi, rbp, rsp,
        c15.c0, c15.c1, c15.c2, mem (rsi + 32), mem (rsi + 40), mem (rsi + 48), mem (rsi + 56), r15, mem,
        Function.update (Function.update (Function.update cell 0 c1.c0) 1 c5.c0) 2 c10.c0⟩ := by
    first
    | (rw [ec15]; rfl)
    | (rw [ec15, ec14]; rfl)
    | (rw [ec15, ec14, ec13]; rfl)
    | (rw [ec15, ec14, ec13, ec12]; rfl)
    | (rw [ec15, ec14, ec13, ec12, ec11]; rfl)
    | (rw [ec15, ec14, ec13, ec12, ec11, ec10]; rfl)
  have s25 : Mac.exec ⟨(mem (rsi + 48)) * (cell 9) % 2 ^ 64, rbx, rcx, (mem (rsi + 48)) * (cell 9) / 2 ^ 64, rsi,
        rdi, rbp, rsp, c15.c0, c15.c1, c15.c2, mem (rsi + 32), mem (rsi + 40), mem (rsi + 48), mem (rsi + 56), r15,
        mem, Function.update (Function.update (Function.update cell 0 c1.c0) 1 c5.c0) 2 c10.c0⟩ (.mov (.reg .r8) (.op
        3)) =
      ⟨(mem (rsi + 48)) * (cell 9) % 2 ^ 64, rbx, rcx, (mem (rsi + 48)) * (cell 9) / 2 ^ 64, rsi, rdi, rbp, rsp,
        c15.c0, c15.c1, c15.c2, mem (rsi + 32), mem (rsi + 40), mem (rsi + 48), mem (rsi + 56), r15, mem,
        Function.update (Function.update (Function.update (Function.update cell 0 c1.c0) 1 c5.c0) 2 c10.c0) 3 c15.c0⟩
        := rfl
  have s26 : Mac.exec ⟨(mem (rsi + 48)) * (cell 9) % 2 ^ 64, rbx, rcx, (mem (rsi + 48)) * (cell 9) / 2 ^ 64, rsi,
        rdi, rbp, rsp, c15.c0, c15.c1, c15.c2, mem (rsi + 32), mem (rsi + 40), mem (rsi + 48), mem (rsi + 56), r15,
        mem, Function.update (Function.update (Function.update (Function.update cell 0 c1.c0) 1 c5.c0) 2 c10.c0) 3
        c15.c0⟩ (.zero .r8) =
      ⟨(mem (rsi + 48)) * (cell 9) % 2 ^ 64, rbx, rcx, (mem (rsi + 48)) * (cell 9) / 2 ^ 64, rsi, rdi, rbp, rsp, 0,
        c15.c1, c15.c2, mem (rsi + 32), mem (rsi + 40), mem (rsi + 48), mem (rsi + 56), r15, mem, Function.update
        (Function.update (Function.update (Function.update cell 0 c1.c0) 1 c5.c0) 2 c10.c0) 3 c15.c0⟩ := rfl
  have s27 : Mac.exec ⟨(mem (rsi + 48)) * (cell 9) % 2 ^ 64, rbx, rcx, (mem (rsi + 48)) * (cell 9) / 2 ^ 64, rsi,
        rdi, rbp, rsp, 0, c15.c1, c15.c2, mem (rsi + 32), mem (rsi + 40), mem (rsi + 48), mem (rsi + 56), r15, mem,
        Function.update (Function.update (Function.update (Function.update cell 0 c1.c0) 1 c5.c0) 2 c10.c0) 3 c15.c0⟩
        (.muladd .r9 .r10 .r8 (.op 9) .r14) =
      ⟨(mem (rsi + 56)) * (cell 9) % 2 ^ 64, rbx, rcx, (mem (rsi + 56)) * (cell 9) / 2 ^ 64, rsi, rdi, rbp, rsp,
        c17.c2, c17.c0, c17.c1, mem (rsi + 32), mem (rsi + 40), mem (rsi + 48), mem (rsi + 56), r15, mem,
        Function.update (Function.update (Function.update (Function.update cell 0 c1.c0) 1 c5.c0) 2 c10.c0) 3 c15.c0⟩
        := by
    first
    | (rw [ec17]; rfl)
    | (rw [ec17, ec16]; rfl)
    | (rw [ec17, ec16, ec15]; rfl)
    | (rw [ec17, ec16, ec15, ec14]; rfl)
    | (rw [ec17, ec16, ec15, ec14, ec13]; rfl)
    | (rw [ec17, ec16, ec15, ec14, ec13, ec12]; rfl)
  have s28 : Mac.exec ⟨(mem (rsi + 56)) * (cell 9) % 2 ^ 64, rbx, rcx, (mem (rsi + 56)) * (cell 9) / 2 ^ 64, rsi,
        rdi, rbp, rsp, c17.c2, c17.c0, c17.c1, mem (rsi + 32), mem (rsi + 40), mem (rsi + 48), mem (rsi + 56), r15,
        mem, Function.update (Function.update (Function.update (Function.update cell 0 c1.c0) 1 c5.c0) 2 c10.c0) 3
        c15.c0⟩ (.sumadd .r9 .r10 .r8 (.reg .r13)) =
      ⟨(mem (rsi + 56)) * (cell 9) % 2 ^ 64, rbx, rcx, (mem (rsi + 56)) * (cell 9) / 2 ^ 64, rsi, rdi, rbp, rsp,
        c18.c2, c18.c0, c18.c1, mem (rsi + 32), mem (rsi + 40), mem (rsi + 48), mem (rsi + 56), r15, mem,
        Function.update (Function.update (Function.update (Function.update cell 0 c1.c0) 1 c5.c0) 2 c10.c0) 3 c15.c0⟩
        := by
    first
    | (rw [ec18]; rfl)
    | (rw [ec18, ec17]; rfl)
    | (rw [ec18, ec17, ec16]; rfl)
    | (rw [ec18, ec17, ec16, ec15]; rfl)
    | (rw [ec18, ec17, ec16, ec15, ec14]; rfl)
    | (rw [ec18, ec17, ec16, ec15, ec14, ec13]; rfl)
  have s29 : Mac.exec ⟨(mem (rsi + 56)) * (cell 9) % 2 ^ 64, rbx, rcx, (mem (rsi + 56)) * (cell 9) / 2 ^ 64, rsi,
        rdi, rbp, rsp, c18.c2, c18.c0, c18.c1, mem (rsi + 32), mem (rsi + 40), mem (rsi + 48), mem (rsi + 56), r15,
        mem, Function.update (Function.update (Function.update (Function.update cell 0 c1.c0) 1 c5.c0) 2 c10.c0) 3
        c15.c0⟩ (.mov (.reg .r9) (.op 4)) =
      ⟨(mem (rsi + 56)) * (cell 9) % 2 ^ 64, rbx, rcx, (mem (rsi + 56)) * (cell 9) / 2 ^ 64, rsi, rdi, rbp, rsp,
        c18.c2, c18.c0, c18.c1, mem (rsi + 32), mem (rsi + 40), mem (rsi + 48), mem (rsi + 56), r15, mem,
        Function.update (Function.update (Function.update (Function.update (Function.update cell 0 c1.c0) 1 c5.c0) 2
        c10.c0) 3 c15.c0) 4 c18.c0⟩ := rfl
  have s30 : Mac.exec ⟨(mem (rsi + 56)) * (cell 9) % 2 ^ 64, rbx, rcx, (mem (rsi + 56)) * (cell 9) / 2 ^ 64, rsi,
        rdi, rbp, rsp, c18.c2, c18.c0, c18.c1, mem (rsi + 32), mem (rsi + 40), mem (rsi + 48), mem (rsi + 56), r15,
        mem, Function.update (Function.update (Function.update (Function.update (Function.update cell 0 c1.c0) 1
        c5.c0) 2 c10.c0) 3 c15.c0) 4 c18.c0⟩ (.sumaddFast .r10 .r8 (.reg .r14)) =
      ⟨(mem (rsi + 56)) * (cell 9) % 2 ^ 64, rbx, rcx, (mem (rsi + 56)) * (cell 9) / 2 ^ 64, rsi, rdi, rbp, rsp,
        c20.c1, c18.c0, c20.c0, mem (rsi + 32), mem (rsi + 40), mem (rsi + 48), mem (rsi + 56), r15, mem,
        Function.update (Function.update (Function.update (Function.update (Function.update cell 0 c1.c0) 1 c5.c0) 2
        c10.c0) 3 c15.c0) 4 c18.c0⟩ := by
    first
    | (rw [ec20]; rfl)
    | (rw [ec20, ec19]; rfl)
    | (rw [ec20, ec19, ec18]; rfl)
    | (rw [ec20, ec19, ec18, ec17]; rfl)
    | (rw [ec20, ec19, ec18, ec17, ec16]; rfl)
    | (rw [ec20, ec19, ec18, ec17, ec16, ec15]; rfl)
  have s31 : Mac.exec ⟨(mem (rsi + 56)) * (cell 9) % 2 ^ 64, rbx, rcx, (mem (rsi + 56)) * (cell 9) / 2 ^ 64, rsi,
        rdi, rbp, rsp, c20.c1, c18.c0, c20.c0, mem (rsi + 32), mem (rsi + 40), mem (rsi + 48), mem (rsi + 56), r15,
        mem, Function.update (Function.update (Function.update (Function.update (Function.update cell 0 c1.c0) 1
        c5.c0) 2 c10.c0) 3 c15.c0) 4 c18.c0⟩ (.mov (.reg .r10) (.op 5)) =
      ⟨(mem (rsi + 56)) * (cell 9) % 2 ^ 64, rbx, rcx, (mem (rsi + 56)) * (cell 9) / 2 ^ 64, rsi, rdi, rbp, rsp,
        c20.c1, c18.c0, c20.c0, mem (rsi + 32), mem (rsi + 40), mem (rsi + 48), mem (rsi + 56), r15, mem,
        Function.update (Function.update (Function.update (Function.update (Function.update (Function.update cell 0
        c1.c0) 1 c5.c0) 2 c10.c0) 3 c15.c0) 4 c18.c0) 5 c20.c0⟩ := rfl
  have s32 : Mac.exec ⟨(mem (rsi + 56)) * (cell 9) % 2 ^ 64, rbx, rcx, (mem (rsi + 56)) * (cell 9) / 2 ^ 64, rsi,
        rdi, rbp, rsp, c20.c1, c18.c0, c20.c0, mem (rsi + 32), mem (rsi + 40), mem (rsi + 48), mem (rsi + 56), r15,
        mem, Function.update (Function.update (Function.update (Function.update (Function.update (Function.update
        cell 0 c1.c0) 1 c5.c0) 2 c10.c0) 3 c15.c0) 4 c18.c0) 5 c20.c0⟩ (.mov (.reg .r8) (.op 6)) =
      ⟨(mem (rsi + 56)) * (cell 9) % 2 ^ 64, rbx, rcx, (mem (rsi + 56)) * (cell 9) / 2 ^ 64, rsi, rdi, rbp, rsp,
        c20.c1, c18.c0, c20.c0, mem (rsi + 32), mem (rsi + 40), mem (rsi + 48), mem (rsi + 56), r15, mem,
        Function.update (Function.update (Function.update (Function.update (Function.update (Function.update
        (Function.update cell 0 c1.c0) 1 c5.c0) 2 c10.c0) 3 c15.c0) 4 c18.c0) 5 c20.c0) 6 c20.c1⟩ := rfl
  have hr : r = ⟨(mem (rsi + 56)) * (cell 9) % 2 ^ 64, rbx, rcx, (mem (rsi + 56)) * (cell 9) / 2 ^ 64, rsi, rdi, rbp,
        rsp, c20.c1, c18.c0, c20.c0, mem (rsi + 32), mem (rsi + 40), mem (rsi + 48), mem (rsi + 56), r15, mem,
        Function.update (Function.update (Function.update (Function.update (Function.update (Function.update
        (Function.update cell 0 c1.c0) 1 c5.c0) 2 c10.c0) 3 c15.c0) 4 c18.c0) 5 c20.c0) 6 c20.c1⟩ := by
    unfold r reduceAMacs
    rw [hm]
    simp only [List.foldl_cons, List.foldl_nil]
    rw [s0, s1, s2, s3, s4, s5, s6, s7, s8, s9, s10, s11, s12, s13, s14, s15, s16, s17, s18, s19, s20, s21, s22, s23,
        s24, s25, s26, s27, s28, s29, s30, s31, s32]
  rw [hr, hq]
  clear hr hq
  clear_value r
  exact ⟨rfl, rfl, rfl, rfl, rfl, rfl, by show c20.c1 = c21.c0; rw [ec21]; rfl⟩

theorem reduceB_eval (rax rbx rcx rdx rsi rdi rbp rsp r8 r9 r10 r11 r12 r13 r14 r15 : ℕ) (mem cell : ℕ → ℕ)
    (h12 : cell 12 = scNC0) (h13 : cell 13 = scNC1) (m : MS)
    (hm : m = ⟨rax, rbx, rcx, rdx, rsi, rdi, rbp, rsp, r8, r9, r10, r11, r12, r13, r14, r15, mem, cell⟩) :
    let r := reduceBMacs.foldl Mac.exec m
    let q := Sc4.redB ⟨cell 5, cell 6, cell 7, cell 8, cell 9, cell 10, cell 11⟩
    r.cell 0 = q.p0 ∧ r.cell 1 = q.p1 ∧ r.cell 2 = q.p2 ∧ r.cell 3 = q.p3 ∧ r.cell 4 = q.p4 := by
  intro r q
  obtain ⟨q', hq⟩ : ∃ q', q' = q := ⟨_, rfl⟩
  rw [← hq]
  unfold q Sc4.redB at hq
  clear q
  rw [← h12, ← h13] at hq
  extract_lets c0 c1 xp0 c2 c3 c4 c5 xp1 c6 c7 c8 c9 c10 xp2 c11 c12 c13 c14 xp3 c15 xp4 at hq
  have ec0 : c0 = ⟨(cell 5), 0, 0⟩ := rfl
  have ec1 : c1 = c0.muladdFast (cell 9) (cell 12) := rfl
  have ec2 : c2 = c1.extractFast := rfl
  have ec3 : c3 = c2.sumaddFast (cell 6) := rfl
  have ec4 : c4 = c3.muladd 64 (cell 10) (cell 12) := rfl
  have ec5 : c5 = c4.muladd 64 (cell 9) (cell 13) := rfl
  have ec6 : c6 = c5.extract := rfl
  have ec7 : c7 = c6.sumadd 64 (cell 7) := rfl
  have ec8 : c8 = c7.muladd 64 (cell 11) (cell 12) := rfl
  have ec9 : c9 = c8.muladd 64 (cell 10) (cell 13) := rfl
  have ec10 : c10 = c9.sumadd 64 (cell 9) := rfl
  have ec11 : c11 = c10.extract := rfl
  have ec12 : c12 = c11.sumaddFast (cell 8) := rfl
  have ec13 : c13 = c12.muladdFast (cell 11) (cell 13) := rfl
  have ec14 : c14 = c13.sumaddFast (cell 10) := rfl
  have ec15 : c15 = c14.extractFast := rfl
  clear_value c0
  clear_value c1
  clear_value c2
  clear_value c3
  clear_value c4
  clear_value c5
  clear_value c6
  clear_value c7
  clear_value c8
  clear_value c9
  clear_value c10
  clear_value c11
  clear_value c12
  clear_value c13
  clear_value c14
  clear_value c15
  have s0 : Mac.exec ⟨rax, rbx, rcx, rdx, rsi, rdi, rbp, rsp, r8, r9, r10, r11, r12, r13, r14, r15, mem, cell⟩ (.mov
        (.op 9) (.reg .r11)) =
      ⟨rax, rbx, rcx, rdx, rsi, rdi, rbp, rsp, r8, r9, r10, cell 9, r12, r13, r14, r15, mem, cell⟩ := rfl
  have s1 : Mac.exec ⟨rax, rbx, rcx, rdx, rsi, rdi, rbp, rsp, r8, r9, r10, cell 9, r12, r13, r14, r15, mem, cell⟩
        (.mov (.op 10) (.reg .r12)) =
      ⟨rax, rbx, rcx, rdx, rsi, rdi, rbp, rsp, r8, r9, r10, cell 9, cell 10, r13, r14, r15, mem, cell⟩ := rfl
  have s2 : Mac.exec ⟨rax, rbx, rcx, rdx, rsi, rdi, rbp, rsp, r8, r9, r10, cell 9, cell 10, r13, r14, r15, mem, cell⟩
        (.mov (.op 11) (.reg .r13)) =
      ⟨rax, rbx, rcx, rdx, rsi, rdi, rbp, rsp, r8, r9, r10, cell 9, cell 10, cell 11, r14, r15, mem, cell⟩ := rfl
  have s3 : Mac.exec ⟨rax, rbx, rcx, rdx, rsi, rdi, rbp, rsp, r8, r9, r10, cell 9, cell 10, cell 11, r14, r15, mem,
        cell⟩ (.mov (.op 5) (.reg .r8)) =
      ⟨rax, rbx, rcx, rdx, rsi, rdi, rbp, rsp, cell 5, r9, r10, cell 9, cell 10, cell 11, r14, r15, mem, cell⟩ := rfl
  have s4 : Mac.exec ⟨rax, rbx, rcx, rdx, rsi, rdi, rbp, rsp, cell 5, r9, r10, cell 9, cell 10, cell 11, r14, r15,
        mem, cell⟩ (.zero .r9) =
      ⟨rax, rbx, rcx, rdx, rsi, rdi, rbp, rsp, cell 5, 0, r10, cell 9, cell 10, cell 11, r14, r15, mem, cell⟩ := rfl
  have s5 : Mac.exec ⟨rax, rbx, rcx, rdx, rsi, rdi, rbp, rsp, cell 5, 0, r10, cell 9, cell 10, cell 11, r14, r15,
        mem, cell⟩ (.zero .r10) =
      ⟨rax, rbx, rcx, rdx, rsi, rdi, rbp, rsp, cell 5, 0, 0, cell 9, cell 10, cell 11, r14, r15, mem, cell⟩ := rfl
  have s6 : Mac.exec ⟨rax, rbx, rcx, rdx, rsi, rdi, rbp, rsp, cell 5, 0, 0, cell 9, cell 10, cell 11, r14, r15, mem,
        cell⟩ (.muladdFast .r8 .r9 (.op 12) .r11) =
      ⟨(cell 9) * (cell 12) % 2 ^ 64, rbx, rcx, (cell 9) * (cell 12) / 2 ^ 64, rsi, rdi, rbp, rsp, c1.c0, c1.c1, 0,
        cell 9, cell 10, cell 11, r14, r15, mem, cell⟩ := by
    first
    | (rw [ec1]; rfl)
    | (rw [ec1, ec0]; rfl)
  have s7 : Mac.exec ⟨(cell 9) * (cell 12) % 2 ^ 64, rbx, rcx, (cell 9) * (cell 12) / 2 ^ 64, rsi, rdi, rbp, rsp,
        c1.c0, c1.c1, 0, cell 9, cell 10, cell 11, r14, r15, mem, cell⟩ (.mov (.reg .r8) (.op 0)) =
      ⟨(cell 9) * (cell 12) % 2 ^ 64, rbx, rcx, (cell 9) * (cell 12) / 2 ^ 64, rsi, rdi, rbp, rsp, c1.c0, c1.c1, 0,
        cell 9, cell 10, cell 11, r14, r15, mem, Function.update cell 0 c1.c0⟩ := rfl
  have s8 : Mac.exec ⟨(cell 9) * (cell 12) % 2 ^ 64, rbx, rcx, (cell 9) * (cell 12) / 2 ^ 64, rsi, rdi, rbp, rsp,
        c1.c0, c1.c1, 0, cell 9, cell 10, cell 11, r14, r15, mem, Function.update cell 0 c1.c0⟩ (.zero .r8) =
      ⟨(cell 9) * (cell 12) % 2 ^ 64, rbx, rcx, (cell 9) * (cell 12) / 2 ^ 64, rsi, rdi, rbp, rsp, 0, c1.c1, 0, cell
        9, cell 10, cell 11, r14, r15, mem, Function.update cell 0 c1.c0⟩ := rfl
  have s9 : Mac.exec ⟨(cell 9) * (cell 12) % 2 ^ 64, rbx, rcx, (cell 9) * (cell 12) / 2 ^ 64, rsi, rdi, rbp, rsp, 0,
        c1.c1, 0, cell 9, cell 10, cell 11, r14, r15, mem, Function.update cell 0 c1.c0⟩ (.sumaddFast .r9 .r10 (.op
        6)) =
      ⟨(cell 9) * (cell 12) % 2 ^ 64, rbx, rcx, (cell 9) * (cell 12) / 2 ^ 64, rsi, rdi, rbp, rsp, 0, c3.c0, c3.c1,
        cell 9, cell 10, cell 11, r14, r15, mem, Function.update cell 0 c1.c0⟩ := by
    first
    | (rw [ec3]; rfl)
    | (rw [ec3, ec2]; rfl)
    | (rw [ec3, ec2, ec1]; rfl)
    | (rw [ec3, ec2, ec1, ec0]; rfl)
  have s10 : Mac.exec ⟨(cell 9) * (cell 12) % 2 ^ 64, rbx, rcx, (cell 9) * (cell 12) / 2 ^ 64, rsi, rdi, rbp, rsp, 0,
        c3.c0, c3.c1, cell 9, cell 10, cell 11, r14, r15, mem, Function.update cell 0 c1.c0⟩ (.muladd .r9 .r10 .r8
        (.op 12) .r12) =
      ⟨(cell 10) * (cell 12) % 2 ^ 64, rbx, rcx, (cell 10) * (cell 12) / 2 ^ 64, rsi, rdi, rbp, rsp, c4.c2, c4.c0,
        c4.c1, cell 9, cell 10, cell 11, r14, r15, mem, Function.update cell 0 c1.c0⟩ := by
    first
    | (rw [ec4]; rfl)
    | (rw [ec4, ec3]; rfl)
    | (rw [ec4, ec3, ec2]; rfl)
    | (rw [ec4, ec3, ec2, ec1]; rfl)
    | (rw [ec4, ec3, ec2, ec1, ec0]; rfl)
  have s11 : Mac.exec ⟨(cell 10) * (cell 12) % 2 ^ 64, rbx, rcx, (cell 10) * (cell 12) / 2 ^ 64, rsi, rdi, rbp, rsp,
        c4.c2, c4.c0, c4.c1, cell 9, cell 10, cell 11, r14, r15, mem, Function.update cell 0 c1.c0⟩ (.muladd .r9 .r10
        .r8 (.op 13) .r11) =
      ⟨(cell 9) * (cell 13) % 2 ^ 64, rbx, rcx, (cell 9) * (cell 13) / 2 ^ 64, rsi, rdi, rbp, rsp, c5.c2, c5.c0,
        c5.c1, cell 9, cell 10, cell 11, r14, r15, mem, Function.update cell 0 c1.c0⟩ := by
    first
    | (rw [ec5]; rfl)
    | (rw [ec5, ec4]; rfl)
    | (rw [ec5, ec4, ec3]; rfl)
    | (rw [ec5, ec4, ec3, ec2]; rfl)
    | (rw [ec5, ec4, ec3, ec2, ec1]; rfl)
    | (rw [ec5, ec4, ec3, ec2, ec1, ec0]; rfl)
  have s12 : Mac.exec ⟨(cell 9) * (cell 13) % 2 ^ 64, rbx, rcx, (cell 9) * (cell 13) / 2 ^ 64, rsi, rdi, rbp, rsp,
        c5.c2, c5.c0, c5.c1, cell 9, cell 10, cell 11, r14, r15, mem, Function.update cell 0 c1.c0⟩ (.mov (.reg .r9)
        (.op 1)) =
      ⟨(cell 9) * (cell 13) % 2 ^ 64, rbx, rcx, (cell 9) * (cell 13) / 2 ^ 64, rsi, rdi, rbp, rsp, c5.c2, c5.c0,
        c5.c1, cell 9, cell 10, cell 11, r14, r15, mem, Function.update (Function.update cell 0 c1.c0) 1 c5.c0⟩ := rfl
  have s13 : Mac.exec ⟨(cell 9) * (cell 13) % 2 ^ 64, rbx, rcx, (cell 9) * (cell 13) / 2 ^ 64, rsi, rdi, rbp, rsp,
        c5.c2, c5.c0, c5.c1, cell 9, cell 10, cell 11, r14, r15, mem, Function.update (Function.update cell 0 c1.c0)
        1 c5.c0⟩ (.zero .r9) =
      ⟨(cell 9) * (cell 13) % 2 ^ 64, rbx, rcx, (cell 9) * (cell 13) / 2 ^ 64, rsi, rdi, rbp, rsp, c5.c2, 0, c5.c1,
        cell 9, cell 10, cell 11, r14, r15, mem, Function.update (Function.update cell 0 c1.c0) 1 c5.c0⟩ := rfl
  have s14 : Mac.exec ⟨(cell 9) * (cell 13) % 2 ^ 64, rbx, rcx, (cell 9) * (cell 13) / 2 ^ 64, rsi, rdi, rbp, rsp,
        c5.c2, 0, c5.c1, cell 9, cell 10, cell 11, r14, r15, mem, Function.update (Function.update cell 0 c1.c0) 1
        c5.c0⟩ (.sumadd .r10 .r8 .r9 (.op 7)) =
      ⟨(cell 9) * (cell 13) % 2 ^ 64, rbx, rcx, (cell 9) * (cell 13) / 2 ^ 64, rsi, rdi, rbp, rsp, c7.c1, c7.c2,
        c7.c0, cell 9, cell 10, cell 11, r14, r15, mem, Function.update (Function.update cell 0 c1.c0) 1 c5.c0⟩ := by
    first
    | (rw [ec7]; rfl)
    | (rw [ec7, ec6]; rfl)
    | (rw [ec7, ec6, ec5]; rfl)
    | (rw [ec7, ec6, ec5, ec4]; rfl)
    | (rw [ec7, ec6, ec5, ec4, ec3]; rfl)
    | (rw [ec7, ec6, ec5, ec4, ec3, ec2]; rfl)
  have s15 : Mac.exec ⟨(cell 9) * (cell 13) % 2 ^ 64, rbx, rcx, (cell 9) * (cell 13) / 2 ^ 64, rsi, rdi, rbp, rsp,
        c7.c1, c7.c2, c7.c0, cell 9, cell 10, cell 11, r14, r15, mem, Function.update (Function.update cell 0 c1.c0)
        1 c5.c0⟩ (.muladd .r10 .r8 .r9 (.op 12) .r13) =
      ⟨(cell 11) * (cell 12) % 2 ^ 64, rbx, rcx, (cell 11) * (cell 12) / 2 ^ 64, rsi, rdi, rbp, rsp, c8.c1, c8.c2,
        c8.c0, cell 9, cell 10, cell 11, r14, r15, mem, Function.update (Function.update cell 0 c1.c0) 1 c5.c0⟩ := by
    first
    | (rw [ec8]; rfl)
    | (rw [ec8, ec7]; rfl)
    | (rw [ec8, ec7, ec6]; rfl)
    | (rw [ec8, ec7, ec6, ec5]; rfl)
    | (rw [ec8, ec7, ec6, ec5, ec4]; rfl)
    | (rw [ec8, ec7, ec6, ec5, ec4, ec3]; rfl)
  have s16 : Mac.exec ⟨(cell 11) * (cell 12) % 2 ^ 64, rbx, rcx, (cell 11) * (cell 12) / 2 ^ 64, rsi, rdi, rbp, rsp,
        c8.c1, c8.c2, c8.c0, cell 9, cell 10, cell 11, r14, r15, mem, Function.update (Function.update cell 0 c1.c0)
        1 c5.c0⟩ (.muladd .r10 .r8 .r9 (.op 13) .r12) =
      ⟨(cell 10) * (cell 13) % 2 ^ 64, rbx, rcx, (cell 10) * (cell 13) / 2 ^ 64, rsi, rdi, rbp, rsp, c9.c1, c9.c2,
        c9.c0, cell 9, cell 10, cell 11, r14, r15, mem, Function.update (Function.update cell 0 c1.c0) 1 c5.c0⟩ := by
    first
    | (rw [ec9]; rfl)
    | (rw [ec9, ec8]; rfl)
    | (rw [ec9, ec8, ec7]; rfl)
    | (rw [ec9, ec8, ec7, ec6]; rfl)
    | (rw [ec9, ec8, ec7, ec6, ec5]; rfl)
    | (rw [ec9, ec8, ec7, ec6, ec5, ec4]; rfl)
  have s17 : Mac.exec ⟨(cell 10) * (cell 13) % 2 ^ 64, rbx, rcx, (cell 10) * (cell 13) / 2 ^ 64, rsi, rdi, rbp, rsp,
        c9.c1, c9.c2, c9.c0, cell 9, cell 10, cell 11, r14, r15, mem, Function.update (Function.update cell 0 c1.c0)
        1 c5.c0⟩ (.sumadd .r10 .r8 .r9 (.reg .r11)) =
      ⟨(cell 10) * (cell 13) % 2 ^ 64, rbx, rcx, (cell 10) * (cell 13) / 2 ^ 64, rsi, rdi, rbp, rsp, c10.c1, c10.c2,
        c10.c0, cell 9, cell 10, cell 11, r14, r15, mem, Function.update (Function.update cell 0 c1.c0) 1 c5.c0⟩ := by
    first
    | (rw [ec10]; rfl)
    | (rw [ec10, ec9]; rfl)
    | (rw [ec10, ec9, ec8]; rfl)
    | (rw [ec10, ec9, ec8, ec7]; rfl)
    | (rw [ec10, ec9, ec8, ec7, ec6]; rfl)
    | (rw [ec10, ec9, ec8, ec7, ec6, ec5]; rfl)
  have s18 : Mac.exec ⟨(cell 10) * (cell 13) % 2 ^ 64, rbx, rcx, (cell 10) * (cell 13) / 2 ^ 64, rsi, rdi, rbp, rsp,
        c10.c1, c10.c2, c10.c0, cell 9, cell 10, cell 11, r14, r15, mem, Function.update (Function.update cell 0
        c1.c0) 1 c5.c0⟩ (.mov (.reg .r10) (.op 2)) =
      ⟨(cell 10) * (cell 13) % 2 ^ 64, rbx, rcx, (cell 10) * (cell 13) / 2 ^ 64, rsi, rdi, rbp, rsp, c10.c1, c10.c2,
        c10.c0, cell 9, cell 10, cell 11, r14, r15, mem, Function.update (Function.update (Function.update cell 0
        c1.c0) 1 c5.c0) 2 c10.c0⟩ := rfl
  have s19 : Mac.exec ⟨(cell 10) * (cell 13) % 2 ^ 64, rbx, rcx, (cell 10) * (cell 13) / 2 ^ 64, rsi, rdi, rbp, rsp,
        c10.c1, c10.c2, c10.c0, cell 9, cell 10, cell 11, r14, r15, mem, Function.update (Function.update
        (Function.update cell 0 c1.c0) 1 c5.c0) 2 c10.c0⟩ (.sumaddFast .r8 .r9 (.op 8)) =
      ⟨(cell 10) * (cell 13) % 2 ^ 64, rbx, rcx, (cell 10) * (cell 13) / 2 ^ 64, rsi, rdi, rbp, rsp, c12.c0, c12.c1,
        c10.c0, cell 9, cell 10, cell 11, r14, r15, mem, Function.update (Function.update (Function.update cell 0
        c1.c0) 1 c5.c0) 2 c10.c0⟩ := by
    first
    | (rw [ec12]; rfl)
    | (rw [ec12, ec11]; rfl)
    | (rw [ec12, ec11, ec10]; rfl)
    | (rw [ec12, ec11, ec10, ec9]; rfl)
    | (rw [ec12, ec11, ec10, ec9, ec8]; rfl)
    | (rw [ec12, ec11, ec10, ec9, ec8, ec7]; rfl)
  have s20 : Mac.exec ⟨(cell 10) * (cell 13) % 2 ^ 64, rbx, rcx, (cell 10) * (cell 13) / 2 ^ 64, rsi, rdi, rbp, rsp,
        c12.c0, c12.c1, c10.c0, cell 9, cell 10, cell 11, r14, r15, mem, Function.update (Function.update
        (Function.update cell 0 c1.c0) 1 c5.c0) 2 c10.c0⟩ (.muladdFast .r8 .r9 (.op 13) .r13) =
      ⟨(cell 11) * (cell 13) % 2 ^ 64, rbx, rcx, (cell 11) * (cell 13) / 2 ^ 64, rsi, rdi, rbp, rsp, c13.c0, c13.c1,
        c10.c0, cell 9, cell 10, cell 11, r14, r15, mem, Function.update (Function.update (Function.update cell 0
        c1.c0) 1 c5.c0) 2 c10.c0⟩ := by
    first
    | (rw [ec13]; rfl)
    | (rw [ec13, ec12]; rfl)
    | (rw [ec13, ec12, ec11]; rfl)
    | (rw [ec13, ec12, ec11, ec10]; rfl)
    | (rw [ec13, ec12, ec11, ec10, ec9]; rfl)
    | (rw [ec13, ec12, ec11, ec10, ec9, ec8]; rfl)
  have s21 : Mac.exec ⟨(cell 11) * (cell 13) % 2 ^ 64, rbx, rcx, (cell 11) * (cell 13) / 2 ^ 64, rsi, rdi, rbp, rsp,
        c13.c0, c13.c1, c10.c0, cell 9, cell 10, cell 11, r14, r15, mem, Function.update (Function.update
        (Function.update cell 0 c1.c0) 1 c5.c0) 2 c10.c0⟩ (.sumaddFast .r8 .r9 (.reg .r12)) =
      ⟨(cell 11) * (cell 13) % 2 ^ 64, rbx, rcx, (cell 11) * (cell 13) / 2 ^ 64, rsi, rdi, rbp, rsp, c14.c0, c14.c1,
        c10.c0, cell 9, cell 10, cell 11, r14, r15, mem, Function.update (Function.update (Function.update cell 0
        c1.c0) 1 c5.c0) 2 c10.c0⟩ := by
    first
    | (rw [ec14]; rfl)
    | (rw [ec14, ec13]; rfl)
    | (rw [ec14, ec13, ec12]; rfl)
    | (rw [ec14, ec13, ec12, ec11]; rfl)
    | (rw [ec14, ec13, ec12, ec11, ec10]; rfl)
    | (rw [ec14, ec13, ec12, ec11, ec10, ec9]; rfl)
  have s22 : Mac.exec ⟨(cell 11) * (cell 13) % 2 ^ 64, rbx, rcx, (cell 11) * (cell 13) / 2 ^ 64, rsi, rdi, rbp, rsp,
        c14.c0, c14.c1, c10.c0, cell 9, cell 10, cell 11, r14, r15, mem, Function.update (Function.update
        (Function.update cell 0 c1.c0) 1 c5.c0) 2 c10.c0⟩ (.mov (.reg .r8) (.op 3)) =
      ⟨(cell 11) * (cell 13) % 2 ^ 64, rbx, rcx, (cell 11) * (cell 13) / 2 ^ 64, rsi, rdi, rbp, rsp, c14.c0, c14.c1,
        c10.c0, cell 9, cell 10, cell 11, r14, r15, mem, Function.update (Function.update (Function.update
        (Function.update cell 0 c1.c0) 1 c5.c0) 2 c10.c0) 3 c14.c0⟩ := rfl
  have s23 : Mac.exec ⟨(cell 11) * (cell 13) % 2 ^ 64, rbx, rcx, (cell 11) * (cell 13) / 2 ^ 64, rsi, rdi, rbp, rsp,
        c14.c0, c14.c1, c10.c0, cell 9, cell 10, cell 11, r14, r15, mem, Function.update (Function.update
        (Function.update (Function.update cell 0 c1.c0) 1 c5.c0) 2 c10.c0) 3 c14.c0⟩ (.add .r9 (.reg .r13)) =
      ⟨(cell 11) * (cell 13) % 2 ^ 64, rbx, rcx, (cell 11) * (cell 13) / 2 ^ 64, rsi, rdi, rbp, rsp, c14.c0, u64
        (c14.c1 + cell 11), c10.c0, cell 9, cell 10, cell 11, r14, r15, mem, Function.update (Function.update
        (Function.update (Function.update cell 0 c1.c0) 1 c5.c0) 2 c10.c0) 3 c14.c0⟩ := rfl
  have s24 : Mac.exec ⟨(cell 11) * (cell 13) % 2 ^ 64, rbx, rcx, (cell 11) * (cell 13) / 2 ^ 64, rsi, rdi, rbp, rsp,
        c14.c0, u64 (c14.c1 + cell 11), c10.c0, cell 9, cell 10, cell 11, r14, r15, mem, Function.update
        (Function.update (Function.update (Function.update cell 0 c1.c0) 1 c5.c0) 2 c10.c0) 3 c14.c0⟩ (.mov (.reg
        .r9) (.op 4)) =
      ⟨(cell 11) * (cell 13) % 2 ^ 64, rbx, rcx, (cell 11) * (cell 13) / 2 ^ 64, rsi, rdi, rbp, rsp, c14.c0, u64
        (c14.c1 + cell 11), c10.c0, cell 9, cell 10, cell 11, r14, r15, mem, Function.update (Function.update
        (Function.update (Function.update (Function.update cell 0 c1.c0) 1 c5.c0) 2 c10.c0) 3 c14.c0) 4 (u64 (c14.c1
        + cell 11))⟩ := rfl
  have hr : r = ⟨(cell 11) * (cell 13) % 2 ^ 64, rbx, rcx, (cell 11) * (cell 13) / 2 ^ 64, rsi, rdi, rbp, rsp,
        c14.c0, u64 (c14.c1 + cell 11), c10.c0, cell 9, cell 10, cell 11, r14, r15, mem, Function.update
        (Function.update (Function.update (Function.update (Function.update cell 0 c1.c0) 1 c5.c0) 2 c10.c0) 3
        c14.c0) 4 (u64 (c14.c1 + cell 11))⟩ := by
    unfold r reduceBMacs
    rw [hm]
    simp only [List.foldl_cons, List.foldl_nil]
    rw [s0, s1, s2, s3, s4, s5, s6, s7, s8, s9, s10, s11, s12, s13, s14, s15, s16, s17, s18, s19, s20, s21, s22, s23,
        s24]
  rw [hr, hq]
  clear hr hq
  clear_value r
  exact ⟨rfl, rfl, rfl, rfl, by show u64 (c14.c1 + cell 11) = u64 (c15.c0 + cell 11); rw [ec15]; rfl⟩

theorem reduceC_eval (rax rbx rcx rdx rsi rdi rbp rsp r8 r9 r10 r11 r12 r13 r14 r15 : ℕ) (mem cell : ℕ → ℕ)
    (h7 : cell 7 = scNC0) (h8 : cell 8 = scNC1) (m : MS)
    (hm : m = ⟨rax, rbx, rcx, rdx, rsi, rdi, rbp, rsp, r8, r9, r10, r11, r12, r13, r14, r15, mem, cell⟩) :
    let r := reduceCMacs.foldl Mac.exec m
    let q := Sc4.redC ⟨cell 1, cell 2, cell 3, cell 4, cell 5⟩
    r.mem = Function.update (Function.update (Function.update (Function.update mem (cell 6 + 0) q.1.d0) (cell 6 + 8)
        q.1.d1) (cell 6 + 16) q.1.d2) (cell 6 + 24) q.1.d3 ∧ r.cell 0 = q.2 := by
  intro r q
  obtain ⟨q', hq⟩ : ∃ q', q' = q := ⟨_, rfl⟩
  rw [← hq]
  unfold q Sc4.redC at hq
  clear q
  rw [← h7, ← h8] at hq
  extract_lets c0 c1 xd0 c2 c3 c4 xd1 c5 c6 c7 xd2 c8 c9 xd3 xk at hq
  have ec0 : c0 = ⟨(cell 5) * (cell 7) % 2 ^ 64, (cell 5) * (cell 7) / 2 ^ 64, 0⟩ := rfl
  have ec1 : c1 = c0.sumaddFast (cell 1) := rfl
  have ec2 : c2 = c1.extractFast := rfl
  have ec3 : c3 = c2.sumaddFast (cell 2) := rfl
  have ec4 : c4 = c3.muladdFast (cell 5) (cell 8) := rfl
  have ec5 : c5 = c4.extractFast := rfl
  have ec6 : c6 = c5.sumaddFast (cell 5) := rfl
  have ec7 : c7 = c6.sumaddFast (cell 3) := rfl
  have ec8 : c8 = c7.extractFast := rfl
  have ec9 : c9 = c8.sumaddFast (cell 4) := rfl
  clear_value c0
  clear_value c1
  clear_value c2
  clear_value c3
  clear_value c4
  clear_value c5
  clear_value c6
  clear_value c7
  clear_value c8
  clear_value c9
  have s0 : Mac.exec ⟨rax, rbx, rcx, rdx, rsi, rdi, rbp, rsp, r8, r9, r10, r11, r12, r13, r14, r15, mem, cell⟩ (.mov
        (.op 5) (.reg .r10)) =
      ⟨rax, rbx, rcx, rdx, rsi, rdi, rbp, rsp, r8, r9, cell 5, r11, r12, r13, r14, r15, mem, cell⟩ := rfl
  have s1 : Mac.exec ⟨rax, rbx, rcx, rdx, rsi, rdi, rbp, rsp, r8, r9, cell 5, r11, r12, r13, r14, r15, mem, cell⟩
        (.mul (.op 7) .r10) =
      ⟨(cell 5) * (cell 7) % 2 ^ 64, rbx, rcx, (cell 5) * (cell 7) / 2 ^ 64, rsi, rdi, rbp, rsp, r8, r9, cell 5, r11,
        r12, r13, r14, r15, mem, cell⟩ := rfl
  have s2 : Mac.exec ⟨(cell 5) * (cell 7) % 2 ^ 64, rbx, rcx, (cell 5) * (cell 7) / 2 ^ 64, rsi, rdi, rbp, rsp, r8,
        r9, cell 5, r11, r12, r13, r14, r15, mem, cell⟩ (.sumaddFast .rax .rdx (.op 1)) =
      ⟨c1.c0, rbx, rcx, c1.c1, rsi, rdi, rbp, rsp, r8, r9, cell 5, r11, r12, r13, r14, r15, mem, cell⟩ := by
    first
    | (rw [ec1]; rfl)
    | (rw [ec1, ec0]; rfl)
  have s3 : Mac.exec ⟨c1.c0, rbx, rcx, c1.c1, rsi, rdi, rbp, rsp, r8, r9, cell 5, r11, r12, r13, r14, r15, mem, cell⟩
        (.mov (.reg .rax) (.memOp 0 6)) =
      ⟨c1.c0, rbx, rcx, c1.c1, rsi, rdi, rbp, rsp, r8, r9, cell 5, r11, r12, r13, r14, r15, Function.update mem (cell
        6 + 0) c1.c0, cell⟩ := rfl
  have s4 : Mac.exec ⟨c1.c0, rbx, rcx, c1.c1, rsi, rdi, rbp, rsp, r8, r9, cell 5, r11, r12, r13, r14, r15,
        Function.update mem (cell 6 + 0) c1.c0, cell⟩ (.mov (.reg .rdx) (.reg .r8)) =
      ⟨c1.c0, rbx, rcx, c1.c1, rsi, rdi, rbp, rsp, c1.c1, r9, cell 5, r11, r12, r13, r14, r15, Function.update mem
        (cell 6 + 0) c1.c0, cell⟩ := rfl
  have s5 : Mac.exec ⟨c1.c0, rbx, rcx, c1.c1, rsi, rdi, rbp, rsp, c1.c1, r9, cell 5, r11, r12, r13, r14, r15,
        Function.update mem (cell 6 + 0) c1.c0, cell⟩ (.zero .r9) =
      ⟨c1.c0, rbx, rcx, c1.c1, rsi, rdi, rbp, rsp, c1.c1, 0, cell 5, r11, r12, r13, r14, r15, Function.update mem
        (cell 6 + 0) c1.c0, cell⟩ := rfl
  have s6 : Mac.exec ⟨c1.c0, rbx, rcx, c1.c1, rsi, rdi, rbp, rsp, c1.c1, 0, cell 5, r11, r12, r13, r14, r15,
        Function.update mem (cell 6 + 0) c1.c0, cell⟩ (.sumaddFast .r8 .r9 (.op 2)) =
      ⟨c1.c0, rbx, rcx, c1.c1, rsi, rdi, rbp, rsp, c3.c0, c3.c1, cell 5, r11, r12, r13, r14, r15, Function.update mem
        (cell 6 + 0) c1.c0, cell⟩ := by
    first
    | (rw [ec3]; rfl)
    | (rw [ec3, ec2]; rfl)
    | (rw [ec3, ec2, ec1]; rfl)
    | (rw [ec3, ec2, ec1, ec0]; rfl)
  have s7 : Mac.exec ⟨c1.c0, rbx, rcx, c1.c1, rsi, rdi, rbp, rsp, c3.c0, c3.c1, cell 5, r11, r12, r13, r14, r15,
        Function.update mem (cell 6 + 0) c1.c0, cell⟩ (.muladdFast .r8 .r9 (.op 8) .r10) =
      ⟨(cell 5) * (cell 8) % 2 ^ 64, rbx, rcx, (cell 5) * (cell 8) / 2 ^ 64, rsi, rdi, rbp, rsp, c4.c0, c4.c1, cell
        5, r11, r12, r13, r14, r15, Function.update mem (cell 6 + 0) c1.c0, cell⟩ := by
    first
    | (rw [ec4]; rfl)
    | (rw [ec4, ec3]; rfl)
    | (rw [ec4, ec3, ec2]; rfl)
    | (rw [ec4, ec3, ec2, ec1]; rfl)
    | (rw [ec4, ec3, ec2, ec1, ec0]; rfl)
  have s8 : Mac.exec ⟨(cell 5) * (cell 8) % 2 ^ 64, rbx, rcx, (cell 5) * (cell 8) / 2 ^ 64, rsi, rdi, rbp, rsp,
        c4.c0, c4.c1, cell 5, r11, r12, r13, r14, r15, Function.update mem (cell 6 + 0) c1.c0, cell⟩ (.mov (.reg .r8)
        (.memOp 8 6)) =
      ⟨(cell 5) * (cell 8) % 2 ^ 64, rbx, rcx, (cell 5) * (cell 8) / 2 ^ 64, rsi, rdi, rbp, rsp, c4.c0, c4.c1, cell
        5, r11, r12, r13, r14, r15, Function.update (Function.update mem (cell 6 + 0) c1.c0) (cell 6 + 8) c4.c0,
        cell⟩ := rfl
  have s9 : Mac.exec ⟨(cell 5) * (cell 8) % 2 ^ 64, rbx, rcx, (cell 5) * (cell 8) / 2 ^ 64, rsi, rdi, rbp, rsp,
        c4.c0, c4.c1, cell 5, r11, r12, r13, r14, r15, Function.update (Function.update mem (cell 6 + 0) c1.c0) (cell
        6 + 8) c4.c0, cell⟩ (.zero .r8) =
      ⟨(cell 5) * (cell 8) % 2 ^ 64, rbx, rcx, (cell 5) * (cell 8) / 2 ^ 64, rsi, rdi, rbp, rsp, 0, c4.c1, cell 5,
        r11, r12, r13, r14, r15, Function.update (Function.update mem (cell 6 + 0) c1.c0) (cell 6 + 8) c4.c0, cell⟩
        := rfl
  have s10 : Mac.exec ⟨(cell 5) * (cell 8) % 2 ^ 64, rbx, rcx, (cell 5) * (cell 8) / 2 ^ 64, rsi, rdi, rbp, rsp, 0,
        c4.c1, cell 5, r11, r12, r13, r14, r15, Function.update (Function.update mem (cell 6 + 0) c1.c0) (cell 6 + 8)
        c4.c0, cell⟩ (.sumaddFast .r9 .r8 (.reg .r10)) =
      ⟨(cell 5) * (cell 8) % 2 ^ 64, rbx, rcx, (cell 5) * (cell 8) / 2 ^ 64, rsi, rdi, rbp, rsp, c6.c1, c6.c0, cell
        5, r11, r12, r13, r14, r15, Function.update (Function.update mem (cell 6 + 0) c1.c0) (cell 6 + 8) c4.c0,
        cell⟩ := by
    first
    | (rw [ec6]; rfl)
    | (rw [ec6, ec5]; rfl)
    | (rw [ec6, ec5, ec4]; rfl)
    | (rw [ec6, ec5, ec4, ec3]; rfl)
    | (rw [ec6, ec5, ec4, ec3, ec2]; rfl)
    | (rw [ec6, ec5, ec4, ec3, ec2, ec1]; rfl)
  have s11 : Mac.exec ⟨(cell 5) * (cell 8) % 2 ^ 64, rbx, rcx, (cell 5) * (cell 8) / 2 ^ 64, rsi, rdi, rbp, rsp,
        c6.c1, c6.c0, cell 5, r11, r12, r13, r14, r15, Function.update (Function.update mem (cell 6 + 0) c1.c0) (cell
        6 + 8) c4.c0, cell⟩ (.sumaddFast .r9 .r8 (.op 3)) =
      ⟨(cell 5) * (cell 8) % 2 ^ 64, rbx, rcx, (cell 5) * (cell 8) / 2 ^ 64, rsi, rdi, rbp, rsp, c7.c1, c7.c0, cell
        5, r11, r12, r13, r14, r15, Function.update (Function.update mem (cell 6 + 0) c1.c0) (cell 6 + 8) c4.c0,
        cell⟩ := by
    first
    | (rw [ec7]; rfl)
    | (rw [ec7, ec6]; rfl)
    | (rw [ec7, ec6, ec5]; rfl)
    | (rw [ec7, ec6, ec5, ec4]; rfl)
    | (rw [ec7, ec6, ec5, ec4, ec3]; rfl)
    | (rw [ec7, ec6, ec5, ec4, ec3, ec2]; rfl)
  have s12 : Mac.exec ⟨(cell 5) * (cell 8) % 2 ^ 64, rbx, rcx, (cell 5) * (cell 8) / 2 ^ 64, rsi, rdi, rbp, rsp,
        c7.c1, c7.c0, cell 5, r11, r12, r13, r14, r15, Function.update (Function.update mem (cell 6 + 0) c1.c0) (cell
        6 + 8) c4.c0, cell⟩ (.mov (.reg .r9) (.memOp 16 6)) =
      ⟨(cell 5) * (cell 8) % 2 ^ 64, rbx, rcx, (cell 5) * (cell 8) / 2 ^ 64, rsi, rdi, rbp, rsp, c7.c1, c7.c0, cell
        5, r11, r12, r13, r14, r15, Function.update (Function.update (Function.update mem (cell 6 + 0) c1.c0) (cell 6
        + 8) c4.c0) (cell 6 + 16) c7.c0, cell⟩ := rfl
  have s13 : Mac.exec ⟨(cell 5) * (cell 8) % 2 ^ 64, rbx, rcx, (cell 5) * (cell 8) / 2 ^ 64, rsi, rdi, rbp, rsp,
        c7.c1, c7.c0, cell 5, r11, r12, r13, r14, r15, Function.update (Function.update (Function.update mem (cell 6
        + 0) c1.c0) (cell 6 + 8) c4.c0) (cell 6 + 16) c7.c0, cell⟩ (.zero .r9) =
      ⟨(cell 5) * (cell 8) % 2 ^ 64, rbx, rcx, (cell 5) * (cell 8) / 2 ^ 64, rsi, rdi, rbp, rsp, c7.c1, 0, cell 5,
        r11, r12, r13, r14, r15, Function.update (Function.update (Function.update mem (cell 6 + 0) c1.c0) (cell 6 +
        8) c4.c0) (cell 6 + 16) c7.c0, cell⟩ := rfl
  have s14 : Mac.exec ⟨(cell 5) * (cell 8) % 2 ^ 64, rbx, rcx, (cell 5) * (cell 8) / 2 ^ 64, rsi, rdi, rbp, rsp,
        c7.c1, 0, cell 5, r11, r12, r13, r14, r15, Function.update (Function.update (Function.update mem (cell 6 + 0)
        c1.c0) (cell 6 + 8) c4.c0) (cell 6 + 16) c7.c0, cell⟩ (.sumaddFast .r8 .r9 (.op 4)) =
      ⟨(cell 5) * (cell 8) % 2 ^ 64, rbx, rcx, (cell 5) * (cell 8) / 2 ^ 64, rsi, rdi, rbp, rsp, c9.c0, c9.c1, cell
        5, r11, r12, r13, r14, r15, Function.update (Function.update (Function.update mem (cell 6 + 0) c1.c0) (cell 6
        + 8) c4.c0) (cell 6 + 16) c7.c0, cell⟩ := by
    first
    | (rw [ec9]; rfl)
    | (rw [ec9, ec8]; rfl)
    | (rw [ec9, ec8, ec7]; rfl)
    | (rw [ec9, ec8, ec7, ec6]; rfl)
    | (rw [ec9, ec8, ec7, ec6, ec5]; rfl)
    | (rw [ec9, ec8, ec7, ec6, ec5, ec4]; rfl)
  have s15 : Mac.exec ⟨(cell 5) * (cell 8) % 2 ^ 64, rbx, rcx, (cell 5) * (cell 8) / 2 ^ 64, rsi, rdi, rbp, rsp,
        c9.c0, c9.c1, cell 5, r11, r12, r13, r14, r15, Function.update (Function.update (Function.update mem (cell 6
        + 0) c1.c0) (cell 6 + 8) c4.c0) (cell 6 + 16) c7.c0, cell⟩ (.mov (.reg .r8) (.memOp 24 6)) =
      ⟨(cell 5) * (cell 8) % 2 ^ 64, rbx, rcx, (cell 5) * (cell 8) / 2 ^ 64, rsi, rdi, rbp, rsp, c9.c0, c9.c1, cell
        5, r11, r12, r13, r14, r15, Function.update (Function.update (Function.update (Function.update mem (cell 6 +
        0) c1.c0) (cell 6 + 8) c4.c0) (cell 6 + 16) c7.c0) (cell 6 + 24) c9.c0, cell⟩ := rfl
  have s16 : Mac.exec ⟨(cell 5) * (cell 8) % 2 ^ 64, rbx, rcx, (cell 5) * (cell 8) / 2 ^ 64, rsi, rdi, rbp, rsp,
        c9.c0, c9.c1, cell 5, r11, r12, r13, r14, r15, Function.update (Function.update (Function.update
        (Function.update mem (cell 6 + 0) c1.c0) (cell 6 + 8) c4.c0) (cell 6 + 16) c7.c0) (cell 6 + 24) c9.c0, cell⟩
        (.mov (.reg .r9) (.op 0)) =
      ⟨(cell 5) * (cell 8) % 2 ^ 64, rbx, rcx, (cell 5) * (cell 8) / 2 ^ 64, rsi, rdi, rbp, rsp, c9.c0, c9.c1, cell
        5, r11, r12, r13, r14, r15, Function.update (Function.update (Function.update (Function.update mem (cell 6 +
        0) c1.c0) (cell 6 + 8) c4.c0) (cell 6 + 16) c7.c0) (cell 6 + 24) c9.c0, Function.update cell 0 c9.c1⟩ := rfl
  have hr : r = ⟨(cell 5) * (cell 8) % 2 ^ 64, rbx, rcx, (cell 5) * (cell 8) / 2 ^ 64, rsi, rdi, rbp, rsp, c9.c0,
        c9.c1, cell 5, r11, r12, r13, r14, r15, Function.update (Function.update (Function.update (Function.update
        mem (cell 6 + 0) c1.c0) (cell 6 + 8) c4.c0) (cell 6 + 16) c7.c0) (cell 6 + 24) c9.c0, Function.update cell 0
        c9.c1⟩ := by
    unfold r reduceCMacs
    rw [hm]
    simp only [List.foldl_cons, List.foldl_nil]
    rw [s0, s1, s2, s3, s4, s5, s6, s7, s8, s9, s10, s11, s12, s13, s14, s15, s16]
  rw [hr, hq]
  clear hr hq
  clear_value r
  exact ⟨rfl, rfl⟩

/-- The last word of `a` is read when three words of the product are already stored. -/
theorem upd_late {mem : ℕ → ℕ} {rdi rsi : ℕ} (hd : rdi + 32 ≤ rsi ∨ rsi + 64 ≤ rdi) (x y z : ℕ) :
    (Function.update (Function.update (Function.update mem (rsi + 0) x) (rsi + 8) y) (rsi + 16) z) (rdi + 24) =
      mem (rdi + 24) := by
  rw [Function.update_of_ne (by omega), Function.update_of_ne (by omega), Function.update_of_ne (by omega)]

theorem mul512_eval (rax rbx rcx rdx rsi rdi rbp rsp r8 r9 r10 r11 r12 r13 r14 r15 : ℕ) (mem cell : ℕ → ℕ)
    (hd : rdi + 32 ≤ rsi ∨ rsi + 64 ≤ rdi) (m : MS)
    (hm : m = ⟨rax, rbx, rcx, rdx, rsi, rdi, rbp, rsp, r8, r9, r10, r11, r12, r13, r14, r15, mem, cell⟩) :
    let r := mul512Macs.foldl Mac.exec m
    let q := Sc4.mulW (sc4At mem rdi) (sc4At mem rdx)
    r.mem = Function.update (Function.update (Function.update (Function.update (Function.update (Function.update
        (Function.update (Function.update mem (rsi + 0) q.l0) (rsi + 8) q.l1) (rsi + 16) q.l2) (rsi + 24) q.l3) (rsi
        + 32) q.l4) (rsi + 40) q.l5) (rsi + 48) q.l6) (rsi + 56) q.l7 := by
  intro r q
  obtain ⟨q', hq⟩ : ∃ q', q' = q := ⟨_, rfl⟩
  rw [← hq]
  unfold q Sc4.mulW at hq
  clear q
  extract_lets c0 xl0 c1 c2 c3 xl1 c4 c5 c6 c7 xl2 c8 c9 c10 c11 c12 xl3 c13 c14 c15 c16 xl4 c17 c18 c19 xl5 c20 c21
        xl6 c22 xl7 at hq
  have ec0 : c0 = ⟨(sc4At mem rdx).d0 * (sc4At mem rdi).d0 % 2 ^ 64, (sc4At mem rdx).d0 * (sc4At mem rdi).d0 / 2 ^
        64, 0⟩ := rfl
  have ec1 : c1 = c0.extractFast := rfl
  have ec2 : c2 = c1.muladd 64 (sc4At mem rdx).d1 (sc4At mem rdi).d0 := rfl
  have ec3 : c3 = c2.muladd 64 (sc4At mem rdx).d0 (sc4At mem rdi).d1 := rfl
  have ec4 : c4 = c3.extract := rfl
  have ec5 : c5 = c4.muladd 64 (sc4At mem rdx).d2 (sc4At mem rdi).d0 := rfl
  have ec6 : c6 = c5.muladd 64 (sc4At mem rdx).d1 (sc4At mem rdi).d1 := rfl
  have ec7 : c7 = c6.muladd 64 (sc4At mem rdx).d0 (sc4At mem rdi).d2 := rfl
  have ec8 : c8 = c7.extract := rfl
  have ec9 : c9 = c8.muladd 64 (sc4At mem rdx).d3 (sc4At mem rdi).d0 := rfl
  have ec10 : c10 = c9.muladd 64 (sc4At mem rdx).d2 (sc4At mem rdi).d1 := rfl
  have ec11 : c11 = c10.muladd 64 (sc4At mem rdx).d1 (sc4At mem rdi).d2 := rfl
  have ec12 : c12 = c11.muladd 64 (sc4At mem rdx).d0 (sc4At mem rdi).d3 := rfl
  have ec13 : c13 = c12.extract := rfl
  have ec14 : c14 = c13.muladd 64 (sc4At mem rdx).d3 (sc4At mem rdi).d1 := rfl
  have ec15 : c15 = c14.muladd 64 (sc4At mem rdx).d2 (sc4At mem rdi).d2 := rfl
  have ec16 : c16 = c15.muladd 64 (sc4At mem rdx).d1 (sc4At mem rdi).d3 := rfl
  have ec17 : c17 = c16.extract := rfl
  have ec18 : c18 = c17.muladd 64 (sc4At mem rdx).d3 (sc4At mem rdi).d2 := rfl
  have ec19 : c19 = c18.muladd 64 (sc4At mem rdx).d2 (sc4At mem rdi).d3 := rfl
  have ec20 : c20 = c19.extract := rfl
  have ec21 : c21 = c20.muladdFast (sc4At mem rdx).d3 (sc4At mem rdi).d3 := rfl
  have ec22 : c22 = c21.extractFast := rfl
  clear_value c0
  clear_value c1
  clear_value c2
  clear_value c3
  clear_value c4
  clear_value c5
  clear_value c6
  clear_value c7
  clear_value c8
  clear_value c9
  clear_value c10
  clear_value c11
  clear_value c12
  clear_value c13
  clear_value c14
  clear_value c15
  clear_value c16
  clear_value c17
  clear_value c18
  clear_value c19
  clear_value c20
  clear_value c21
  clear_value c22
  have s0 : Mac.exec ⟨rax, rbx, rcx, rdx, rsi, rdi, rbp, rsp, r8, r9, r10, r11, r12, r13, r14, r15, mem, cell⟩ (.mov
        (.mem 0 .rdi) (.reg .r15)) =
      ⟨rax, rbx, rcx, rdx, rsi, rdi, rbp, rsp, r8, r9, r10, r11, r12, r13, r14, mem (rdi + 0), mem, cell⟩ := rfl
  have s1 : Mac.exec ⟨rax, rbx, rcx, rdx, rsi, rdi, rbp, rsp, r8, r9, r10, r11, r12, r13, r14, mem (rdi + 0), mem,
        cell⟩ (.mov (.mem 8 .rdi) (.reg .rbx)) =
      ⟨rax, mem (rdi + 8), rcx, rdx, rsi, rdi, rbp, rsp, r8, r9, r10, r11, r12, r13, r14, mem (rdi + 0), mem, cell⟩
        := rfl
  have s2 : Mac.exec ⟨rax, mem (rdi + 8), rcx, rdx, rsi, rdi, rbp, rsp, r8, r9, r10, r11, r12, r13, r14, mem (rdi +
        0), mem, cell⟩ (.mov (.mem 16 .rdi) (.reg .rcx)) =
      ⟨rax, mem (rdi + 8), mem (rdi + 16), rdx, rsi, rdi, rbp, rsp, r8, r9, r10, r11, r12, r13, r14, mem (rdi + 0),
        mem, cell⟩ := rfl
  have s3 : Mac.exec ⟨rax, mem (rdi + 8), mem (rdi + 16), rdx, rsi, rdi, rbp, rsp, r8, r9, r10, r11, r12, r13, r14,
        mem (rdi + 0), mem, cell⟩ (.mov (.mem 0 .rdx) (.reg .r11)) =
      ⟨rax, mem (rdi + 8), mem (rdi + 16), rdx, rsi, rdi, rbp, rsp, r8, r9, r10, mem (rdx + 0), r12, r13, r14, mem
        (rdi + 0), mem, cell⟩ := rfl
  have s4 : Mac.exec ⟨rax, mem (rdi + 8), mem (rdi + 16), rdx, rsi, rdi, rbp, rsp, r8, r9, r10, mem (rdx + 0), r12,
        r13, r14, mem (rdi + 0), mem, cell⟩ (.mov (.mem 8 .rdx) (.reg .r12)) =
      ⟨rax, mem (rdi + 8), mem (rdi + 16), rdx, rsi, rdi, rbp, rsp, r8, r9, r10, mem (rdx + 0), mem (rdx + 8), r13,
        r14, mem (rdi + 0), mem, cell⟩ := rfl
  have s5 : Mac.exec ⟨rax, mem (rdi + 8), mem (rdi + 16), rdx, rsi, rdi, rbp, rsp, r8, r9, r10, mem (rdx + 0), mem
        (rdx + 8), r13, r14, mem (rdi + 0), mem, cell⟩ (.mov (.mem 16 .rdx) (.reg .r13)) =
      ⟨rax, mem (rdi + 8), mem (rdi + 16), rdx, rsi, rdi, rbp, rsp, r8, r9, r10, mem (rdx + 0), mem (rdx + 8), mem
        (rdx + 16), r14, mem (rdi + 0), mem, cell⟩ := rfl
  have s6 : Mac.exec ⟨rax, mem (rdi + 8), mem (rdi + 16), rdx, rsi, rdi, rbp, rsp, r8, r9, r10, mem (rdx + 0), mem
        (rdx + 8), mem (rdx + 16), r14, mem (rdi + 0), mem, cell⟩ (.mov (.mem 24 .rdx) (.reg .r14)) =
      ⟨rax, mem (rdi + 8), mem (rdi + 16), rdx, rsi, rdi, rbp, rsp, r8, r9, r10, mem (rdx + 0), mem (rdx + 8), mem
        (rdx + 16), mem (rdx + 24), mem (rdi + 0), mem, cell⟩ := rfl
  have s7 : Mac.exec ⟨rax, mem (rdi + 8), mem (rdi + 16), rdx, rsi, rdi, rbp, rsp, r8, r9, r10, mem (rdx + 0), mem
        (rdx + 8), mem (rdx + 16), mem (rdx + 24), mem (rdi + 0), mem, cell⟩ (.mul (.reg .r15) .r11) =
      ⟨(mem (rdx + 0)) * (mem (rdi + 0)) % 2 ^ 64, mem (rdi + 8), mem (rdi + 16), (mem (rdx + 0)) * (mem (rdi + 0)) /
        2 ^ 64, rsi, rdi, rbp, rsp, r8, r9, r10, mem (rdx + 0), mem (rdx + 8), mem (rdx + 16), mem (rdx + 24), mem
        (rdi + 0), mem, cell⟩ := rfl
  have s8 : Mac.exec ⟨(mem (rdx + 0)) * (mem (rdi + 0)) % 2 ^ 64, mem (rdi + 8), mem (rdi + 16), (mem (rdx + 0)) *
        (mem (rdi + 0)) / 2 ^ 64, rsi, rdi, rbp, rsp, r8, r9, r10, mem (rdx + 0), mem (rdx + 8), mem (rdx + 16), mem
        (rdx + 24), mem (rdi + 0), mem, cell⟩ (.mov (.reg .rax) (.mem 0 .rsi)) =
      ⟨(mem (rdx + 0)) * (mem (rdi + 0)) % 2 ^ 64, mem (rdi + 8), mem (rdi + 16), (mem (rdx + 0)) * (mem (rdi + 0)) /
        2 ^ 64, rsi, rdi, rbp, rsp, r8, r9, r10, mem (rdx + 0), mem (rdx + 8), mem (rdx + 16), mem (rdx + 24), mem
        (rdi + 0), Function.update mem (rsi + 0) ((mem (rdx + 0)) * (mem (rdi + 0)) % 2 ^ 64), cell⟩ := rfl
  have s9 : Mac.exec ⟨(mem (rdx + 0)) * (mem (rdi + 0)) % 2 ^ 64, mem (rdi + 8), mem (rdi + 16), (mem (rdx + 0)) *
        (mem (rdi + 0)) / 2 ^ 64, rsi, rdi, rbp, rsp, r8, r9, r10, mem (rdx + 0), mem (rdx + 8), mem (rdx + 16), mem
        (rdx + 24), mem (rdi + 0), Function.update mem (rsi + 0) ((mem (rdx + 0)) * (mem (rdi + 0)) % 2 ^ 64), cell⟩
        (.mov (.reg .rdx) (.reg .r8)) =
      ⟨(mem (rdx + 0)) * (mem (rdi + 0)) % 2 ^ 64, mem (rdi + 8), mem (rdi + 16), (mem (rdx + 0)) * (mem (rdi + 0)) /
        2 ^ 64, rsi, rdi, rbp, rsp, (mem (rdx + 0)) * (mem (rdi + 0)) / 2 ^ 64, r9, r10, mem (rdx + 0), mem (rdx +
        8), mem (rdx + 16), mem (rdx + 24), mem (rdi + 0), Function.update mem (rsi + 0) ((mem (rdx + 0)) * (mem (rdi
        + 0)) % 2 ^ 64), cell⟩ := rfl
  have s10 : Mac.exec ⟨(mem (rdx + 0)) * (mem (rdi + 0)) % 2 ^ 64, mem (rdi + 8), mem (rdi + 16), (mem (rdx + 0)) *
        (mem (rdi + 0)) / 2 ^ 64, rsi, rdi, rbp, rsp, (mem (rdx + 0)) * (mem (rdi + 0)) / 2 ^ 64, r9, r10, mem (rdx +
        0), mem (rdx + 8), mem (rdx + 16), mem (rdx + 24), mem (rdi + 0), Function.update mem (rsi + 0) ((mem (rdx +
        0)) * (mem (rdi + 0)) % 2 ^ 64), cell⟩ (.zero .r9) =
      ⟨(mem (rdx + 0)) * (mem (rdi + 0)) % 2 ^ 64, mem (rdi + 8), mem (rdi + 16), (mem (rdx + 0)) * (mem (rdi + 0)) /
        2 ^ 64, rsi, rdi, rbp, rsp, (mem (rdx + 0)) * (mem (rdi + 0)) / 2 ^ 64, 0, r10, mem (rdx + 0), mem (rdx + 8),
        mem (rdx + 16), mem (rdx + 24), mem (rdi + 0), Function.update mem (rsi + 0) ((mem (rdx + 0)) * (mem (rdi +
        0)) % 2 ^ 64), cell⟩ := rfl
  have s11 : Mac.exec ⟨(mem (rdx + 0)) * (mem (rdi + 0)) % 2 ^ 64, mem (rdi + 8), mem (rdi + 16), (mem (rdx + 0)) *
        (mem (rdi + 0)) / 2 ^ 64, rsi, rdi, rbp, rsp, (mem (rdx + 0)) * (mem (rdi + 0)) / 2 ^ 64, 0, r10, mem (rdx +
        0), mem (rdx + 8), mem (rdx + 16), mem (rdx + 24), mem (rdi + 0), Function.update mem (rsi + 0) ((mem (rdx +
        0)) * (mem (rdi + 0)) % 2 ^ 64), cell⟩ (.zero .r10) =
      ⟨(mem (rdx + 0)) * (mem (rdi + 0)) % 2 ^ 64, mem (rdi + 8), mem (rdi + 16), (mem (rdx + 0)) * (mem (rdi + 0)) /
        2 ^ 64, rsi, rdi, rbp, rsp, (mem (rdx + 0)) * (mem (rdi + 0)) / 2 ^ 64, 0, 0, mem (rdx + 0), mem (rdx + 8),
        mem (rdx + 16), mem (rdx + 24), mem (rdi + 0), Function.update mem (rsi + 0) ((mem (rdx + 0)) * (mem (rdi +
        0)) % 2 ^ 64), cell⟩ := rfl
  have s12 : Mac.exec ⟨(mem (rdx + 0)) * (mem (rdi + 0)) % 2 ^ 64, mem (rdi + 8), mem (rdi + 16), (mem (rdx + 0)) *
        (mem (rdi + 0)) / 2 ^ 64, rsi, rdi, rbp, rsp, (mem (rdx + 0)) * (mem (rdi + 0)) / 2 ^ 64, 0, 0, mem (rdx +
        0), mem (rdx + 8), mem (rdx + 16), mem (rdx + 24), mem (rdi + 0), Function.update mem (rsi + 0) ((mem (rdx +
        0)) * (mem (rdi + 0)) % 2 ^ 64), cell⟩ (.muladd .r8 .r9 .r10 (.reg .r15) .r12) =
      ⟨(mem (rdx + 8)) * (mem (rdi + 0)) % 2 ^ 64, mem (rdi + 8), mem (rdi + 16), (mem (rdx + 8)) * (mem (rdi + 0)) /
        2 ^ 64, rsi, rdi, rbp, rsp, c2.c0, c2.c1, c2.c2, mem (rdx + 0), mem (rdx + 8), mem (rdx + 16), mem (rdx +
        24), mem (rdi + 0), Function.update mem (rsi + 0) ((mem (rdx + 0)) * (mem (rdi + 0)) % 2 ^ 64), cell⟩ := by
    first
    | (rw [ec2]; rfl)
    | (rw [ec2, ec1]; rfl)
    | (rw [ec2, ec1, ec0]; rfl)
  have s13 : Mac.exec ⟨(mem (rdx + 8)) * (mem (rdi + 0)) % 2 ^ 64, mem (rdi + 8), mem (rdi + 16), (mem (rdx + 8)) *
        (mem (rdi + 0)) / 2 ^ 64, rsi, rdi, rbp, rsp, c2.c0, c2.c1, c2.c2, mem (rdx + 0), mem (rdx + 8), mem (rdx +
        16), mem (rdx + 24), mem (rdi + 0), Function.update mem (rsi + 0) ((mem (rdx + 0)) * (mem (rdi + 0)) % 2 ^
        64), cell⟩ (.muladd .r8 .r9 .r10 (.reg .rbx) .r11) =
      ⟨(mem (rdx + 0)) * (mem (rdi + 8)) % 2 ^ 64, mem (rdi + 8), mem (rdi + 16), (mem (rdx + 0)) * (mem (rdi + 8)) /
        2 ^ 64, rsi, rdi, rbp, rsp, c3.c0, c3.c1, c3.c2, mem (rdx + 0), mem (rdx + 8), mem (rdx + 16), mem (rdx +
        24), mem (rdi + 0), Function.update mem (rsi + 0) ((mem (rdx + 0)) * (mem (rdi + 0)) % 2 ^ 64), cell⟩ := by
    first
    | (rw [ec3]; rfl)
    | (rw [ec3, ec2]; rfl)
    | (rw [ec3, ec2, ec1]; rfl)
    | (rw [ec3, ec2, ec1, ec0]; rfl)
  have s14 : Mac.exec ⟨(mem (rdx + 0)) * (mem (rdi + 8)) % 2 ^ 64, mem (rdi + 8), mem (rdi + 16), (mem (rdx + 0)) *
        (mem (rdi + 8)) / 2 ^ 64, rsi, rdi, rbp, rsp, c3.c0, c3.c1, c3.c2, mem (rdx + 0), mem (rdx + 8), mem (rdx +
        16), mem (rdx + 24), mem (rdi + 0), Function.update mem (rsi + 0) ((mem (rdx + 0)) * (mem (rdi + 0)) % 2 ^
        64), cell⟩ (.mov (.reg .r8) (.mem 8 .rsi)) =
      ⟨(mem (rdx + 0)) * (mem (rdi + 8)) % 2 ^ 64, mem (rdi + 8), mem (rdi + 16), (mem (rdx + 0)) * (mem (rdi + 8)) /
        2 ^ 64, rsi, rdi, rbp, rsp, c3.c0, c3.c1, c3.c2, mem (rdx + 0), mem (rdx + 8), mem (rdx + 16), mem (rdx +
        24), mem (rdi + 0), Function.update (Function.update mem (rsi + 0) ((mem (rdx + 0)) * (mem (rdi + 0)) % 2 ^
        64)) (rsi + 8) c3.c0, cell⟩ := rfl
  have s15 : Mac.exec ⟨(mem (rdx + 0)) * (mem (rdi + 8)) % 2 ^ 64, mem (rdi + 8), mem (rdi + 16), (mem (rdx + 0)) *
        (mem (rdi + 8)) / 2 ^ 64, rsi, rdi, rbp, rsp, c3.c0, c3.c1, c3.c2, mem (rdx + 0), mem (rdx + 8), mem (rdx +
        16), mem (rdx + 24), mem (rdi + 0), Function.update (Function.update mem (rsi + 0) ((mem (rdx + 0)) * (mem
        (rdi + 0)) % 2 ^ 64)) (rsi + 8) c3.c0, cell⟩ (.zero .r8) =
      ⟨(mem (rdx + 0)) * (mem (rdi + 8)) % 2 ^ 64, mem (rdi + 8), mem (rdi + 16), (mem (rdx + 0)) * (mem (rdi + 8)) /
        2 ^ 64, rsi, rdi, rbp, rsp, 0, c3.c1, c3.c2, mem (rdx + 0), mem (rdx + 8), mem (rdx + 16), mem (rdx + 24),
        mem (rdi + 0), Function.update (Function.update mem (rsi + 0) ((mem (rdx + 0)) * (mem (rdi + 0)) % 2 ^ 64))
        (rsi + 8) c3.c0, cell⟩ := rfl
  have s16 : Mac.exec ⟨(mem (rdx + 0)) * (mem (rdi + 8)) % 2 ^ 64, mem (rdi + 8), mem (rdi + 16), (mem (rdx + 0)) *
        (mem (rdi + 8)) / 2 ^ 64, rsi, rdi, rbp, rsp, 0, c3.c1, c3.c2, mem (rdx + 0), mem (rdx + 8), mem (rdx + 16),
        mem (rdx + 24), mem (rdi + 0), Function.update (Function.update mem (rsi + 0) ((mem (rdx + 0)) * (mem (rdi +
        0)) % 2 ^ 64)) (rsi + 8) c3.c0, cell⟩ (.muladd .r9 .r10 .r8 (.reg .r15) .r13) =
      ⟨(mem (rdx + 16)) * (mem (rdi + 0)) % 2 ^ 64, mem (rdi + 8), mem (rdi + 16), (mem (rdx + 16)) * (mem (rdi + 0))
        / 2 ^ 64, rsi, rdi, rbp, rsp, c5.c2, c5.c0, c5.c1, mem (rdx + 0), mem (rdx + 8), mem (rdx + 16), mem (rdx +
        24), mem (rdi + 0), Function.update (Function.update mem (rsi + 0) ((mem (rdx + 0)) * (mem (rdi + 0)) % 2 ^
        64)) (rsi + 8) c3.c0, cell⟩ := by
    first
    | (rw [ec5]; rfl)
    | (rw [ec5, ec4]; rfl)
    | (rw [ec5, ec4, ec3]; rfl)
    | (rw [ec5, ec4, ec3, ec2]; rfl)
    | (rw [ec5, ec4, ec3, ec2, ec1]; rfl)
    | (rw [ec5, ec4, ec3, ec2, ec1, ec0]; rfl)
  have s17 : Mac.exec ⟨(mem (rdx + 16)) * (mem (rdi + 0)) % 2 ^ 64, mem (rdi + 8), mem (rdi + 16), (mem (rdx + 16)) *
        (mem (rdi + 0)) / 2 ^ 64, rsi, rdi, rbp, rsp, c5.c2, c5.c0, c5.c1, mem (rdx + 0), mem (rdx + 8), mem (rdx +
        16), mem (rdx + 24), mem (rdi + 0), Function.update (Function.update mem (rsi + 0) ((mem (rdx + 0)) * (mem
        (rdi + 0)) % 2 ^ 64)) (rsi + 8) c3.c0, cell⟩ (.muladd .r9 .r10 .r8 (.reg .rbx) .r12) =
      ⟨(mem (rdx + 8)) * (mem (rdi + 8)) % 2 ^ 64, mem (rdi + 8), mem (rdi + 16), (mem (rdx + 8)) * (mem (rdi + 8)) /
        2 ^ 64, rsi, rdi, rbp, rsp, c6.c2, c6.c0, c6.c1, mem (rdx + 0), mem (rdx + 8), mem (rdx + 16), mem (rdx +
        24), mem (rdi + 0), Function.update (Function.update mem (rsi + 0) ((mem (rdx + 0)) * (mem (rdi + 0)) % 2 ^
        64)) (rsi + 8) c3.c0, cell⟩ := by
    first
    | (rw [ec6]; rfl)
    | (rw [ec6, ec5]; rfl)
    | (rw [ec6, ec5, ec4]; rfl)
    | (rw [ec6, ec5, ec4, ec3]; rfl)
    | (rw [ec6, ec5, ec4, ec3, ec2]; rfl)
    | (rw [ec6, ec5, ec4, ec3, ec2, ec1]; rfl)
  have s18 : Mac.exec ⟨(mem (rdx + 8)) * (mem (rdi + 8)) % 2 ^ 64, mem (rdi + 8), mem (rdi + 16), (mem (rdx + 8)) *
        (mem (rdi + 8)) / 2 ^ 64, rsi, rdi, rbp, rsp, c6.c2, c6.c0, c6.c1, mem (rdx + 0), mem (rdx + 8), mem (rdx +
        16), mem (rdx + 24), mem (rdi + 0), Function.update (Function.update mem (rsi + 0) ((mem (rdx + 0)) * (mem
        (rdi + 0)) % 2 ^ 64)) (rsi + 8) c3.c0, cell⟩ (.muladd .r9 .r10 .r8 (.reg .rcx) .r11) =
      ⟨(mem (rdx + 0)) * (mem (rdi + 16)) % 2 ^ 64, mem (rdi + 8), mem (rdi + 16), (mem (rdx + 0)) * (mem (rdi + 16))
        / 2 ^ 64, rsi, rdi, rbp, rsp, c7.c2, c7.c0, c7.c1, mem (rdx + 0), mem (rdx + 8), mem (rdx + 16), mem (rdx +
        24), mem (rdi + 0), Function.update (Function.update mem (rsi + 0) ((mem (rdx + 0)) * (mem (rdi + 0)) % 2 ^
        64)) (rsi + 8) c3.c0, cell⟩ := by
    first
    | (rw [ec7]; rfl)
    | (rw [ec7, ec6]; rfl)
    | (rw [ec7, ec6, ec5]; rfl)
    | (rw [ec7, ec6, ec5, ec4]; rfl)
    | (rw [ec7, ec6, ec5, ec4, ec3]; rfl)
    | (rw [ec7, ec6, ec5, ec4, ec3, ec2]; rfl)
  have s19 : Mac.exec ⟨(mem (rdx + 0)) * (mem (rdi + 16)) % 2 ^ 64, mem (rdi + 8), mem (rdi + 16), (mem (rdx + 0)) *
        (mem (rdi + 16)) / 2 ^ 64, rsi, rdi, rbp, rsp, c7.c2, c7.c0, c7.c1, mem (rdx + 0), mem (rdx + 8), mem (rdx +
        16), mem (rdx + 24), mem (rdi + 0), Function.update (Function.update mem (rsi + 0) ((mem (rdx + 0)) * (mem
        (rdi + 0)) % 2 ^ 64)) (rsi + 8) c3.c0, cell⟩ (.mov (.reg .r9) (.mem 16 .rsi)) =
      ⟨(mem (rdx + 0)) * (mem (rdi + 16)) % 2 ^ 64, mem (rdi + 8), mem (rdi + 16), (mem (rdx + 0)) * (mem (rdi + 16))
        / 2 ^ 64, rsi, rdi, rbp, rsp, c7.c2, c7.c0, c7.c1, mem (rdx + 0), mem (rdx + 8), mem (rdx + 16), mem (rdx +
        24), mem (rdi + 0), Function.update (Function.update (Function.update mem (rsi + 0) ((mem (rdx + 0)) * (mem
        (rdi + 0)) % 2 ^ 64)) (rsi + 8) c3.c0) (rsi + 16) c7.c0, cell⟩ := rfl
  have s20 : Mac.exec ⟨(mem (rdx + 0)) * (mem (rdi + 16)) % 2 ^ 64, mem (rdi + 8), mem (rdi + 16), (mem (rdx + 0)) *
        (mem (rdi + 16)) / 2 ^ 64, rsi, rdi, rbp, rsp, c7.c2, c7.c0, c7.c1, mem (rdx + 0), mem (rdx + 8), mem (rdx +
        16), mem (rdx + 24), mem (rdi + 0), Function.update (Function.update (Function.update mem (rsi + 0) ((mem
        (rdx + 0)) * (mem (rdi + 0)) % 2 ^ 64)) (rsi + 8) c3.c0) (rsi + 16) c7.c0, cell⟩ (.zero .r9) =
      ⟨(mem (rdx + 0)) * (mem (rdi + 16)) % 2 ^ 64, mem (rdi + 8), mem (rdi + 16), (mem (rdx + 0)) * (mem (rdi + 16))
        / 2 ^ 64, rsi, rdi, rbp, rsp, c7.c2, 0, c7.c1, mem (rdx + 0), mem (rdx + 8), mem (rdx + 16), mem (rdx + 24),
        mem (rdi + 0), Function.update (Function.update (Function.update mem (rsi + 0) ((mem (rdx + 0)) * (mem (rdi +
        0)) % 2 ^ 64)) (rsi + 8) c3.c0) (rsi + 16) c7.c0, cell⟩ := rfl
  have s21 : Mac.exec ⟨(mem (rdx + 0)) * (mem (rdi + 16)) % 2 ^ 64, mem (rdi + 8), mem (rdi + 16), (mem (rdx + 0)) *
        (mem (rdi + 16)) / 2 ^ 64, rsi, rdi, rbp, rsp, c7.c2, 0, c7.c1, mem (rdx + 0), mem (rdx + 8), mem (rdx + 16),
        mem (rdx + 24), mem (rdi + 0), Function.update (Function.update (Function.update mem (rsi + 0) ((mem (rdx +
        0)) * (mem (rdi + 0)) % 2 ^ 64)) (rsi + 8) c3.c0) (rsi + 16) c7.c0, cell⟩ (.muladd .r10 .r8 .r9 (.reg .r15)
        .r14) =
      ⟨(mem (rdx + 24)) * (mem (rdi + 0)) % 2 ^ 64, mem (rdi + 8), mem (rdi + 16), (mem (rdx + 24)) * (mem (rdi + 0))
        / 2 ^ 64, rsi, rdi, rbp, rsp, c9.c1, c9.c2, c9.c0, mem (rdx + 0), mem (rdx + 8), mem (rdx + 16), mem (rdx +
        24), mem (rdi + 0), Function.update (Function.update (Function.update mem (rsi + 0) ((mem (rdx + 0)) * (mem
        (rdi + 0)) % 2 ^ 64)) (rsi + 8) c3.c0) (rsi + 16) c7.c0, cell⟩ := by
    first
    | (rw [ec9]; rfl)
    | (rw [ec9, ec8]; rfl)
    | (rw [ec9, ec8, ec7]; rfl)
    | (rw [ec9, ec8, ec7, ec6]; rfl)
    | (rw [ec9, ec8, ec7, ec6, ec5]; rfl)
    | (rw [ec9, ec8, ec7, ec6, ec5, ec4]; rfl)
  have s22 : Mac.exec ⟨(mem (rdx + 24)) * (mem (rdi + 0)) % 2 ^ 64, mem (rdi + 8), mem (rdi + 16), (mem (rdx + 24)) *
        (mem (rdi + 0)) / 2 ^ 64, rsi, rdi, rbp, rsp, c9.c1, c9.c2, c9.c0, mem (rdx + 0), mem (rdx + 8), mem (rdx +
        16), mem (rdx + 24), mem (rdi + 0), Function.update (Function.update (Function.update mem (rsi + 0) ((mem
        (rdx + 0)) * (mem (rdi + 0)) % 2 ^ 64)) (rsi + 8) c3.c0) (rsi + 16) c7.c0, cell⟩ (.mov (.mem 24 .rdi) (.reg
        .r15)) =
      ⟨(mem (rdx + 24)) * (mem (rdi + 0)) % 2 ^ 64, mem (rdi + 8), mem (rdi + 16), (mem (rdx + 24)) * (mem (rdi + 0))
        / 2 ^ 64, rsi, rdi, rbp, rsp, c9.c1, c9.c2, c9.c0, mem (rdx + 0), mem (rdx + 8), mem (rdx + 16), mem (rdx +
        24), mem (rdi + 24), Function.update (Function.update (Function.update mem (rsi + 0) ((mem (rdx + 0)) * (mem
        (rdi + 0)) % 2 ^ 64)) (rsi + 8) c3.c0) (rsi + 16) c7.c0, cell⟩ := by
    rw [show mem (rdi + 24) = (Function.update (Function.update (Function.update mem (rsi + 0) ((mem (rdx + 0)) *
        (mem (rdi + 0)) % 2 ^ 64)) (rsi + 8) c3.c0) (rsi + 16) c7.c0) (rdi + 24) from (upd_late hd _ _ _).symm]
    rfl
  have s23 : Mac.exec ⟨(mem (rdx + 24)) * (mem (rdi + 0)) % 2 ^ 64, mem (rdi + 8), mem (rdi + 16), (mem (rdx + 24)) *
        (mem (rdi + 0)) / 2 ^ 64, rsi, rdi, rbp, rsp, c9.c1, c9.c2, c9.c0, mem (rdx + 0), mem (rdx + 8), mem (rdx +
        16), mem (rdx + 24), mem (rdi + 24), Function.update (Function.update (Function.update mem (rsi + 0) ((mem
        (rdx + 0)) * (mem (rdi + 0)) % 2 ^ 64)) (rsi + 8) c3.c0) (rsi + 16) c7.c0, cell⟩ (.muladd .r10 .r8 .r9 (.reg
        .rbx) .r13) =
      ⟨(mem (rdx + 16)) * (mem (rdi + 8)) % 2 ^ 64, mem (rdi + 8), mem (rdi + 16), (mem (rdx + 16)) * (mem (rdi + 8))
        / 2 ^ 64, rsi, rdi, rbp, rsp, c10.c1, c10.c2, c10.c0, mem (rdx + 0), mem (rdx + 8), mem (rdx + 16), mem (rdx
        + 24), mem (rdi + 24), Function.update (Function.update (Function.update mem (rsi + 0) ((mem (rdx + 0)) *
        (mem (rdi + 0)) % 2 ^ 64)) (rsi + 8) c3.c0) (rsi + 16) c7.c0, cell⟩ := by
    first
    | (rw [ec10]; rfl)
    | (rw [ec10, ec9]; rfl)
    | (rw [ec10, ec9, ec8]; rfl)
    | (rw [ec10, ec9, ec8, ec7]; rfl)
    | (rw [ec10, ec9, ec8, ec7, ec6]; rfl)
    | (rw [ec10, ec9, ec8, ec7, ec6, ec5]; rfl)
  have s24 : Mac.exec ⟨(mem (rdx + 16)) * (mem (rdi + 8)) % 2 ^ 64, mem (rdi + 8), mem (rdi + 16), (mem (rdx + 16)) *
        (mem (rdi + 8)) / 2 ^ 64, rsi, rdi, rbp, rsp, c10.c1, c10.c2, c10.c0, mem (rdx + 0), mem (rdx + 8), mem (rdx
        + 16), mem (rdx + 24), mem (rdi + 24), Function.update (Function.update (Function.update mem (rsi + 0) ((mem
        (rdx + 0)) * (mem (rdi + 0)) % 2 ^ 64)) (rsi + 8) c3.c0) (rsi + 16) c7.c0, cell⟩ (.muladd .r10 .r8 .r9 (.reg
        .rcx) .r12) =
      ⟨(mem (rdx + 8)) * (mem (rdi + 16)) % 2 ^ 64, mem (rdi + 8), mem (rdi + 16), (mem (rdx + 8)) * (mem (rdi + 16))
        / 2 ^ 64, rsi, rdi, rbp, rsp, c11.c1, c11.c2, c11.c0, mem (rdx + 0), mem (rdx + 8), mem (rdx + 16), mem (rdx
        + 24), mem (rdi + 24), Function.update (Function.update (Function.update mem (rsi + 0) ((mem (rdx + 0)) *
        (mem (rdi + 0)) % 2 ^ 64)) (rsi + 8) c3.c0) (rsi + 16) c7.c0, cell⟩ := by
    first
    | (rw [ec11]; rfl)
    | (rw [ec11, ec10]; rfl)
    | (rw [ec11, ec10, ec9]; rfl)
    | (rw [ec11, ec10, ec9, ec8]; rfl)
    | (rw [ec11, ec10, ec9, ec8, ec7]; rfl)
    | (rw [ec11, ec10, ec9, ec8, ec7, ec6]; rfl)
  have s25 : Mac.exec ⟨(mem (rdx + 8)) * (mem (rdi + 16)) % 2 ^ 64, mem (rdi + 8), mem (rdi + 16), (mem (rdx + 8)) *
        (mem (rdi + 16)) / 2 ^ 64, rsi, rdi, rbp, rsp, c11.c1, c11.c2, c11.c0, mem (rdx + 0), mem (rdx + 8), mem (rdx
        + 16), mem (rdx + 24), mem (rdi + 24), Function.update (Function.update (Function.update mem (rsi + 0) ((mem
        (rdx + 0)) * (mem (rdi + 0)) % 2 ^ 64)) (rsi + 8) c3.c0) (rsi + 16) c7.c0, cell⟩ (.muladd .r10 .r8 .r9 (.reg
        .r15) .r11) =
      ⟨(mem (rdx + 0)) * (mem (rdi + 24)) % 2 ^ 64, mem (rdi + 8), mem (rdi + 16), (mem (rdx + 0)) * (mem (rdi + 24))
        / 2 ^ 64, rsi, rdi, rbp, rsp, c12.c1, c12.c2, c12.c0, mem (rdx + 0), mem (rdx + 8), mem (rdx + 16), mem (rdx
        + 24), mem (rdi + 24), Function.update (Function.update (Function.update mem (rsi + 0) ((mem (rdx + 0)) *
        (mem (rdi + 0)) % 2 ^ 64)) (rsi + 8) c3.c0) (rsi + 16) c7.c0, cell⟩ := by
    first
    | (rw [ec12]; rfl)
    | (rw [ec12, ec11]; rfl)
    | (rw [ec12, ec11, ec10]; rfl)
    | (rw [ec12, ec11, ec10, ec9]; rfl)
    | (rw [ec12, ec11, ec10, ec9, ec8]; rfl)
    | (rw [ec12, ec11, ec10, ec9, ec8, ec7]; rfl)
  have s26 : Mac.exec ⟨(mem (rdx + 0)) * (mem (rdi + 24)) % 2 ^ 64, mem (rdi + 8), mem (rdi + 16), (mem (rdx + 0)) *
        (mem (rdi + 24)) / 2 ^ 64, rsi, rdi, rbp, rsp, c12.c1, c12.c2, c12.c0, mem (rdx + 0), mem (rdx + 8), mem (rdx
        + 16), mem (rdx + 24), mem (rdi + 24), Function.update (Function.update (Function.update mem (rsi + 0) ((mem
        (rdx + 0)) * (mem (rdi + 0)) % 2 ^ 64)) (rsi + 8) c3.c0) (rsi + 16) c7.c0, cell⟩ (.mov (.reg .r10) (.mem 24
        .rsi)) =
      ⟨(mem (rdx + 0)) * (mem (rdi + 24)) % 2 ^ 64, mem (rdi + 8), mem (rdi + 16), (mem (rdx + 0)) * (mem (rdi + 24))
        / 2 ^ 64, rsi, rdi, rbp, rsp, c12.c1, c12.c2, c12.c0, mem (rdx + 0), mem (rdx + 8), mem (rdx + 16), mem (rdx
        + 24), mem (rdi + 24), Function.update (Function.update (Function.update (Function.update mem (rsi + 0) ((mem
        (rdx + 0)) * (mem (rdi + 0)) % 2 ^ 64)) (rsi + 8) c3.c0) (rsi + 16) c7.c0) (rsi + 24) c12.c0, cell⟩ := rfl
  have s27 : Mac.exec ⟨(mem (rdx + 0)) * (mem (rdi + 24)) % 2 ^ 64, mem (rdi + 8), mem (rdi + 16), (mem (rdx + 0)) *
        (mem (rdi + 24)) / 2 ^ 64, rsi, rdi, rbp, rsp, c12.c1, c12.c2, c12.c0, mem (rdx + 0), mem (rdx + 8), mem (rdx
        + 16), mem (rdx + 24), mem (rdi + 24), Function.update (Function.update (Function.update (Function.update mem
        (rsi + 0) ((mem (rdx + 0)) * (mem (rdi + 0)) % 2 ^ 64)) (rsi + 8) c3.c0) (rsi + 16) c7.c0) (rsi + 24) c12.c0,
        cell⟩ (.zero .r10) =
      ⟨(mem (rdx + 0)) * (mem (rdi + 24)) % 2 ^ 64, mem (rdi + 8), mem (rdi + 16), (mem (rdx + 0)) * (mem (rdi + 24))
        / 2 ^ 64, rsi, rdi, rbp, rsp, c12.c1, c12.c2, 0, mem (rdx + 0), mem (rdx + 8), mem (rdx + 16), mem (rdx +
        24), mem (rdi + 24), Function.update (Function.update (Function.update (Function.update mem (rsi + 0) ((mem
        (rdx + 0)) * (mem (rdi + 0)) % 2 ^ 64)) (rsi + 8) c3.c0) (rsi + 16) c7.c0) (rsi + 24) c12.c0, cell⟩ := rfl
  have s28 : Mac.exec ⟨(mem (rdx + 0)) * (mem (rdi + 24)) % 2 ^ 64, mem (rdi + 8), mem (rdi + 16), (mem (rdx + 0)) *
        (mem (rdi + 24)) / 2 ^ 64, rsi, rdi, rbp, rsp, c12.c1, c12.c2, 0, mem (rdx + 0), mem (rdx + 8), mem (rdx +
        16), mem (rdx + 24), mem (rdi + 24), Function.update (Function.update (Function.update (Function.update mem
        (rsi + 0) ((mem (rdx + 0)) * (mem (rdi + 0)) % 2 ^ 64)) (rsi + 8) c3.c0) (rsi + 16) c7.c0) (rsi + 24) c12.c0,
        cell⟩ (.muladd .r8 .r9 .r10 (.reg .rbx) .r14) =
      ⟨(mem (rdx + 24)) * (mem (rdi + 8)) % 2 ^ 64, mem (rdi + 8), mem (rdi + 16), (mem (rdx + 24)) * (mem (rdi + 8))
        / 2 ^ 64, rsi, rdi, rbp, rsp, c14.c0, c14.c1, c14.c2, mem (rdx + 0), mem (rdx + 8), mem (rdx + 16), mem (rdx
        + 24), mem (rdi + 24), Function.update (Function.update (Function.update (Function.update mem (rsi + 0) ((mem
        (rdx + 0)) * (mem (rdi + 0)) % 2 ^ 64)) (rsi + 8) c3.c0) (rsi + 16) c7.c0) (rsi + 24) c12.c0, cell⟩ := by
    first
    | (rw [ec14]; rfl)
    | (rw [ec14, ec13]; rfl)
    | (rw [ec14, ec13, ec12]; rfl)
    | (rw [ec14, ec13, ec12, ec11]; rfl)
    | (rw [ec14, ec13, ec12, ec11, ec10]; rfl)
    | (rw [ec14, ec13, ec12, ec11, ec10, ec9]; rfl)
  have s29 : Mac.exec ⟨(mem (rdx + 24)) * (mem (rdi + 8)) % 2 ^ 64, mem (rdi + 8), mem (rdi + 16), (mem (rdx + 24)) *
        (mem (rdi + 8)) / 2 ^ 64, rsi, rdi, rbp, rsp, c14.c0, c14.c1, c14.c2, mem (rdx + 0), mem (rdx + 8), mem (rdx
        + 16), mem (rdx + 24), mem (rdi + 24), Function.update (Function.update (Function.update (Function.update mem
        (rsi + 0) ((mem (rdx + 0)) * (mem (rdi + 0)) % 2 ^ 64)) (rsi + 8) c3.c0) (rsi + 16) c7.c0) (rsi + 24) c12.c0,
        cell⟩ (.muladd .r8 .r9 .r10 (.reg .rcx) .r13) =
      ⟨(mem (rdx + 16)) * (mem (rdi + 16)) % 2 ^ 64, mem (rdi + 8), mem (rdi + 16), (mem (rdx + 16)) * (mem (rdi +
        16)) / 2 ^ 64, rsi, rdi, rbp, rsp, c15.c0, c15.c1, c15.c2, mem (rdx + 0), mem (rdx + 8), mem (rdx + 16), mem
        (rdx + 24), mem (rdi + 24), Function.update (Function.update (Function.update (Function.update mem (rsi + 0)
        ((mem (rdx + 0)) * (mem (rdi + 0)) % 2 ^ 64)) (rsi + 8) c3.c0) (rsi + 16) c7.c0) (rsi + 24) c12.c0, cell⟩ :=
        by
    first
    | (rw [ec15]; rfl)
    | (rw [ec15, ec14]; rfl)
    | (rw [ec15, ec14, ec13]; rfl)
    | (rw [ec15, ec14, ec13, ec12]; rfl)
    | (rw [ec15, ec14, ec13, ec12, ec11]; rfl)
    | (rw [ec15, ec14, ec13, ec12, ec11, ec10]; rfl)
  have s30 : Mac.exec ⟨(mem (rdx + 16)) * (mem (rdi + 16)) % 2 ^ 64, mem (rdi + 8), mem (rdi + 16), (mem (rdx + 16))
        * (mem (rdi + 16)) / 2 ^ 64, rsi, rdi, rbp, rsp, c15.c0, c15.c1, c15.c2, mem (rdx + 0), mem (rdx + 8), mem
        (rdx + 16), mem (rdx + 24), mem (rdi + 24), Function.update (Function.update (Function.update
        (Function.update mem (rsi + 0) ((mem (rdx + 0)) * (mem (rdi + 0)) % 2 ^ 64)) (rsi + 8) c3.c0) (rsi + 16)
        c7.c0) (rsi + 24) c12.c0, cell⟩ (.muladd .r8 .r9 .r10 (.reg .r15) .r12) =
      ⟨(mem (rdx + 8)) * (mem (rdi + 24)) % 2 ^ 64, mem (rdi + 8), mem (rdi + 16), (mem (rdx + 8)) * (mem (rdi + 24))
        / 2 ^ 64, rsi, rdi, rbp, rsp, c16.c0, c16.c1, c16.c2, mem (rdx + 0), mem (rdx + 8), mem (rdx + 16), mem (rdx
        + 24), mem (rdi + 24), Function.update (Function.update (Function.update (Function.update mem (rsi + 0) ((mem
        (rdx + 0)) * (mem (rdi + 0)) % 2 ^ 64)) (rsi + 8) c3.c0) (rsi + 16) c7.c0) (rsi + 24) c12.c0, cell⟩ := by
    first
    | (rw [ec16]; rfl)
    | (rw [ec16, ec15]; rfl)
    | (rw [ec16, ec15, ec14]; rfl)
    | (rw [ec16, ec15, ec14, ec13]; rfl)
    | (rw [ec16, ec15, ec14, ec13, ec12]; rfl)
    | (rw [ec16, ec15, ec14, ec13, ec12, ec11]; rfl)
  have s31 : Mac.exec ⟨(mem (rdx + 8)) * (mem (rdi + 24)) % 2 ^ 64, mem (rdi + 8), mem (rdi + 16), (mem (rdx + 8)) *
        (mem (rdi + 24)) / 2 ^ 64, rsi, rdi, rbp, rsp, c16.c0, c16.c1, c16.c2, mem (rdx + 0), mem (rdx + 8), mem (rdx
        + 16), mem (rdx + 24), mem (rdi + 24), Function.update (Function.update (Function.update (Function.update mem
        (rsi + 0) ((mem (rdx + 0)) * (mem (rdi + 0)) % 2 ^ 64)) (rsi + 8) c3.c0) (rsi + 16) c7.c0) (rsi + 24) c12.c0,
        cell⟩ (.mov (.reg .r8) (.mem 32 .rsi)) =
      ⟨(mem (rdx + 8)) * (mem (rdi + 24)) % 2 ^ 64, mem (rdi + 8), mem (rdi + 16), (mem (rdx + 8)) * (mem (rdi + 24))
        / 2 ^ 64, rsi, rdi, rbp, rsp, c16.c0, c16.c1, c16.c2, mem (rdx + 0), mem (rdx + 8), mem (rdx + 16), mem (rdx
        + 24), mem (rdi + 24), Function.update (Function.update (Function.update (Function.update (Function.update
        mem (rsi + 0) ((mem (rdx + 0)) * (mem (rdi + 0)) % 2 ^ 64)) (rsi + 8) c3.c0) (rsi + 16) c7.c0) (rsi + 24)
        c12.c0) (rsi + 32) c16.c0, cell⟩ := rfl
  have s32 : Mac.exec ⟨(mem (rdx + 8)) * (mem (rdi + 24)) % 2 ^ 64, mem (rdi + 8), mem (rdi + 16), (mem (rdx + 8)) *
        (mem (rdi + 24)) / 2 ^ 64, rsi, rdi, rbp, rsp, c16.c0, c16.c1, c16.c2, mem (rdx + 0), mem (rdx + 8), mem (rdx
        + 16), mem (rdx + 24), mem (rdi + 24), Function.update (Function.update (Function.update (Function.update
        (Function.update mem (rsi + 0) ((mem (rdx + 0)) * (mem (rdi + 0)) % 2 ^ 64)) (rsi + 8) c3.c0) (rsi + 16)
        c7.c0) (rsi + 24) c12.c0) (rsi + 32) c16.c0, cell⟩ (.zero .r8) =
      ⟨(mem (rdx + 8)) * (mem (rdi + 24)) % 2 ^ 64, mem (rdi + 8), mem (rdi + 16), (mem (rdx + 8)) * (mem (rdi + 24))
        / 2 ^ 64, rsi, rdi, rbp, rsp, 0, c16.c1, c16.c2, mem (rdx + 0), mem (rdx + 8), mem (rdx + 16), mem (rdx +
        24), mem (rdi + 24), Function.update (Function.update (Function.update (Function.update (Function.update mem
        (rsi + 0) ((mem (rdx + 0)) * (mem (rdi + 0)) % 2 ^ 64)) (rsi + 8) c3.c0) (rsi + 16) c7.c0) (rsi + 24) c12.c0)
        (rsi + 32) c16.c0, cell⟩ := rfl
  have s33 : Mac.exec ⟨(mem (rdx + 8)) * (mem (rdi + 24)) % 2 ^ 64, mem (rdi + 8), mem (rdi + 16), (mem (rdx + 8)) *
        (mem (rdi + 24)) / 2 ^ 64, rsi, rdi, rbp, rsp, 0, c16.c1, c16.c2, mem (rdx + 0), mem (rdx + 8), mem (rdx +
        16), mem (rdx + 24), mem (rdi + 24), Function.update (Function.update (Function.update (Function.update
        (Function.update mem (rsi + 0) ((mem (rdx + 0)) * (mem (rdi + 0)) % 2 ^ 64)) (rsi + 8) c3.c0) (rsi + 16)
        c7.c0) (rsi + 24) c12.c0) (rsi + 32) c16.c0, cell⟩ (.muladd .r9 .r10 .r8 (.reg .rcx) .r14) =
      ⟨(mem (rdx + 24)) * (mem (rdi + 16)) % 2 ^ 64, mem (rdi + 8), mem (rdi + 16), (mem (rdx + 24)) * (mem (rdi +
        16)) / 2 ^ 64, rsi, rdi, rbp, rsp, c18.c2, c18.c0, c18.c1, mem (rdx + 0), mem (rdx + 8), mem (rdx + 16), mem
        (rdx + 24), mem (rdi + 24), Function.update (Function.update (Function.update (Function.update
        (Function.update mem (rsi + 0) ((mem (rdx + 0)) * (mem (rdi + 0)) % 2 ^ 64)) (rsi + 8) c3.c0) (rsi + 16)
        c7.c0) (rsi + 24) c12.c0) (rsi + 32) c16.c0, cell⟩ := by
    first
    | (rw [ec18]; rfl)
    | (rw [ec18, ec17]; rfl)
    | (rw [ec18, ec17, ec16]; rfl)
    | (rw [ec18, ec17, ec16, ec15]; rfl)
    | (rw [ec18, ec17, ec16, ec15, ec14]; rfl)
    | (rw [ec18, ec17, ec16, ec15, ec14, ec13]; rfl)
  have s34 : Mac.exec ⟨(mem (rdx + 24)) * (mem (rdi + 16)) % 2 ^ 64, mem (rdi + 8), mem (rdi + 16), (mem (rdx + 24))
        * (mem (rdi + 16)) / 2 ^ 64, rsi, rdi, rbp, rsp, c18.c2, c18.c0, c18.c1, mem (rdx + 0), mem (rdx + 8), mem
        (rdx + 16), mem (rdx + 24), mem (rdi + 24), Function.update (Function.update (Function.update
        (Function.update (Function.update mem (rsi + 0) ((mem (rdx + 0)) * (mem (rdi + 0)) % 2 ^ 64)) (rsi + 8)
        c3.c0) (rsi + 16) c7.c0) (rsi + 24) c12.c0) (rsi + 32) c16.c0, cell⟩ (.muladd .r9 .r10 .r8 (.reg .r15) .r13) =
      ⟨(mem (rdx + 16)) * (mem (rdi + 24)) % 2 ^ 64, mem (rdi + 8), mem (rdi + 16), (mem (rdx + 16)) * (mem (rdi +
        24)) / 2 ^ 64, rsi, rdi, rbp, rsp, c19.c2, c19.c0, c19.c1, mem (rdx + 0), mem (rdx + 8), mem (rdx + 16), mem
        (rdx + 24), mem (rdi + 24), Function.update (Function.update (Function.update (Function.update
        (Function.update mem (rsi + 0) ((mem (rdx + 0)) * (mem (rdi + 0)) % 2 ^ 64)) (rsi + 8) c3.c0) (rsi + 16)
        c7.c0) (rsi + 24) c12.c0) (rsi + 32) c16.c0, cell⟩ := by
    first
    | (rw [ec19]; rfl)
    | (rw [ec19, ec18]; rfl)
    | (rw [ec19, ec18, ec17]; rfl)
    | (rw [ec19, ec18, ec17, ec16]; rfl)
    | (rw [ec19, ec18, ec17, ec16, ec15]; rfl)
    | (rw [ec19, ec18, ec17, ec16, ec15, ec14]; rfl)
  have s35 : Mac.exec ⟨(mem (rdx + 16)) * (mem (rdi + 24)) % 2 ^ 64, mem (rdi + 8), mem (rdi + 16), (mem (rdx + 16))
        * (mem (rdi + 24)) / 2 ^ 64, rsi, rdi, rbp, rsp, c19.c2, c19.c0, c19.c1, mem (rdx + 0), mem (rdx + 8), mem
        (rdx + 16), mem (rdx + 24), mem (rdi + 24), Function.update (Function.update (Function.update
        (Function.update (Function.update mem (rsi + 0) ((mem (rdx + 0)) * (mem (rdi + 0)) % 2 ^ 64)) (rsi + 8)
        c3.c0) (rsi + 16) c7.c0) (rsi + 24) c12.c0) (rsi + 32) c16.c0, cell⟩ (.mov (.reg .r9) (.mem 40 .rsi)) =
      ⟨(mem (rdx + 16)) * (mem (rdi + 24)) % 2 ^ 64, mem (rdi + 8), mem (rdi + 16), (mem (rdx + 16)) * (mem (rdi +
        24)) / 2 ^ 64, rsi, rdi, rbp, rsp, c19.c2, c19.c0, c19.c1, mem (rdx + 0), mem (rdx + 8), mem (rdx + 16), mem
        (rdx + 24), mem (rdi + 24), Function.update (Function.update (Function.update (Function.update
        (Function.update (Function.update mem (rsi + 0) ((mem (rdx + 0)) * (mem (rdi + 0)) % 2 ^ 64)) (rsi + 8)
        c3.c0) (rsi + 16) c7.c0) (rsi + 24) c12.c0) (rsi + 32) c16.c0) (rsi + 40) c19.c0, cell⟩ := rfl
  have s36 : Mac.exec ⟨(mem (rdx + 16)) * (mem (rdi + 24)) % 2 ^ 64, mem (rdi + 8), mem (rdi + 16), (mem (rdx + 16))
        * (mem (rdi + 24)) / 2 ^ 64, rsi, rdi, rbp, rsp, c19.c2, c19.c0, c19.c1, mem (rdx + 0), mem (rdx + 8), mem
        (rdx + 16), mem (rdx + 24), mem (rdi + 24), Function.update (Function.update (Function.update
        (Function.update (Function.update (Function.update mem (rsi + 0) ((mem (rdx + 0)) * (mem (rdi + 0)) % 2 ^
        64)) (rsi + 8) c3.c0) (rsi + 16) c7.c0) (rsi + 24) c12.c0) (rsi + 32) c16.c0) (rsi + 40) c19.c0, cell⟩
        (.muladdFast .r10 .r8 (.reg .r15) .r14) =
      ⟨(mem (rdx + 24)) * (mem (rdi + 24)) % 2 ^ 64, mem (rdi + 8), mem (rdi + 16), (mem (rdx + 24)) * (mem (rdi +
        24)) / 2 ^ 64, rsi, rdi, rbp, rsp, c21.c1, c19.c0, c21.c0, mem (rdx + 0), mem (rdx + 8), mem (rdx + 16), mem
        (rdx + 24), mem (rdi + 24), Function.update (Function.update (Function.update (Function.update
        (Function.update (Function.update mem (rsi + 0) ((mem (rdx + 0)) * (mem (rdi + 0)) % 2 ^ 64)) (rsi + 8)
        c3.c0) (rsi + 16) c7.c0) (rsi + 24) c12.c0) (rsi + 32) c16.c0) (rsi + 40) c19.c0, cell⟩ := by
    first
    | (rw [ec21]; rfl)
    | (rw [ec21, ec20]; rfl)
    | (rw [ec21, ec20, ec19]; rfl)
    | (rw [ec21, ec20, ec19, ec18]; rfl)
    | (rw [ec21, ec20, ec19, ec18, ec17]; rfl)
    | (rw [ec21, ec20, ec19, ec18, ec17, ec16]; rfl)
  have s37 : Mac.exec ⟨(mem (rdx + 24)) * (mem (rdi + 24)) % 2 ^ 64, mem (rdi + 8), mem (rdi + 16), (mem (rdx + 24))
        * (mem (rdi + 24)) / 2 ^ 64, rsi, rdi, rbp, rsp, c21.c1, c19.c0, c21.c0, mem (rdx + 0), mem (rdx + 8), mem
        (rdx + 16), mem (rdx + 24), mem (rdi + 24), Function.update (Function.update (Function.update
        (Function.update (Function.update (Function.update mem (rsi + 0) ((mem (rdx + 0)) * (mem (rdi + 0)) % 2 ^
        64)) (rsi + 8) c3.c0) (rsi + 16) c7.c0) (rsi + 24) c12.c0) (rsi + 32) c16.c0) (rsi + 40) c19.c0, cell⟩ (.mov
        (.reg .r10) (.mem 48 .rsi)) =
      ⟨(mem (rdx + 24)) * (mem (rdi + 24)) % 2 ^ 64, mem (rdi + 8), mem (rdi + 16), (mem (rdx + 24)) * (mem (rdi +
        24)) / 2 ^ 64, rsi, rdi, rbp, rsp, c21.c1, c19.c0, c21.c0, mem (rdx + 0), mem (rdx + 8), mem (rdx + 16), mem
        (rdx + 24), mem (rdi + 24), Function.update (Function.update (Function.update (Function.update
        (Function.update (Function.update (Function.update mem (rsi + 0) ((mem (rdx + 0)) * (mem (rdi + 0)) % 2 ^
        64)) (rsi + 8) c3.c0) (rsi + 16) c7.c0) (rsi + 24) c12.c0) (rsi + 32) c16.c0) (rsi + 40) c19.c0) (rsi + 48)
        c21.c0, cell⟩ := rfl
  have s38 : Mac.exec ⟨(mem (rdx + 24)) * (mem (rdi + 24)) % 2 ^ 64, mem (rdi + 8), mem (rdi + 16), (mem (rdx + 24))
        * (mem (rdi + 24)) / 2 ^ 64, rsi, rdi, rbp, rsp, c21.c1, c19.c0, c21.c0, mem (rdx + 0), mem (rdx + 8), mem
        (rdx + 16), mem (rdx + 24), mem (rdi + 24), Function.update (Function.update (Function.update
        (Function.update (Function.update (Function.update (Function.update mem (rsi + 0) ((mem (rdx + 0)) * (mem
        (rdi + 0)) % 2 ^ 64)) (rsi + 8) c3.c0) (rsi + 16) c7.c0) (rsi + 24) c12.c0) (rsi + 32) c16.c0) (rsi + 40)
        c19.c0) (rsi + 48) c21.c0, cell⟩ (.mov (.reg .r8) (.mem 56 .rsi)) =
      ⟨(mem (rdx + 24)) * (mem (rdi + 24)) % 2 ^ 64, mem (rdi + 8), mem (rdi + 16), (mem (rdx + 24)) * (mem (rdi +
        24)) / 2 ^ 64, rsi, rdi, rbp, rsp, c21.c1, c19.c0, c21.c0, mem (rdx + 0), mem (rdx + 8), mem (rdx + 16), mem
        (rdx + 24), mem (rdi + 24), Function.update (Function.update (Function.update (Function.update
        (Function.update (Function.update (Function.update (Function.update mem (rsi + 0) ((mem (rdx + 0)) * (mem
        (rdi + 0)) % 2 ^ 64)) (rsi + 8) c3.c0) (rsi + 16) c7.c0) (rsi + 24) c12.c0) (rsi + 32) c16.c0) (rsi + 40)
        c19.c0) (rsi + 48) c21.c0) (rsi + 56) c21.c1, cell⟩ := rfl
  have hr : r = ⟨(mem (rdx + 24)) * (mem (rdi + 24)) % 2 ^ 64, mem (rdi + 8), mem (rdi + 16), (mem (rdx + 24)) * (mem
        (rdi + 24)) / 2 ^ 64, rsi, rdi, rbp, rsp, c21.c1, c19.c0, c21.c0, mem (rdx + 0), mem (rdx + 8), mem (rdx +
        16), mem (rdx + 24), mem (rdi + 24), Function.update (Function.update (Function.update (Function.update
        (Function.update (Function.update (Function.update (Function.update mem (rsi + 0) ((mem (rdx + 0)) * (mem
        (rdi + 0)) % 2 ^ 64)) (rsi + 8) c3.c0) (rsi + 16) c7.c0) (rsi + 24) c12.c0) (rsi + 32) c16.c0) (rsi + 40)
        c19.c0) (rsi + 48) c21.c0) (rsi + 56) c21.c1, cell⟩ := by
    unfold r mul512Macs
    rw [hm]
    simp only [List.foldl_cons, List.foldl_nil]
    rw [s0, s1, s2, s3, s4, s5, s6, s7, s8, s9, s10, s11, s12, s13, s14, s15, s16, s17, s18, s19, s20, s21, s22, s23,
        s24, s25, s26, s27, s28, s29, s30, s31, s32, s33, s34, s35, s36, s37, s38]
  rw [hr, hq]
  clear hr hq
  clear_value r
  have z0 : c0.c0 = mem (rdx + 0) * mem (rdi + 0) % 2 ^ 64 := by rw [ec0]; rfl
  have z7 : c22.c0 = c21.c1 := by rw [ec22]; rfl
  simp only [xl0, xl1, xl2, xl3, xl4, xl5, xl6, xl7, z0, z7]

end Secp.Model.Asm
