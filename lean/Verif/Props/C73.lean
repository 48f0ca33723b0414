import Verif.Proof.Asm.ArmCall
import Verif.Props.C64

/-!
# C73: the ARM assembly multiplies field elements exactly as the C code does

`Arm.mulInner` and `Arm.sqrInner` (Verif/Model/Asm/FieldArm.lean) are the instructions of
`/repo/src/asm/field_10x26_arm.s`.  `Arm.Call` says what a caller provides, `Arm.Returns` what the calling convention
demands of a function besides its result.
-/

namespace Secp
open Model Model.Fe10 Spec

/-- A call of `secp256k1_fe_mul_inner` with arguments of magnitude at most 8 (field.h:261) leaves the limbs that the
C code gives, and so the product modulo `p`, at the address in `r0`.  This holds however the three arrays overlap.  It
returns to the caller and changes no other memory outside its stack frame and no register that the caller may
rely on. -/
theorem C73_mul {s : Arm.St} (h : Arm.Call s [0, 1, 2]) {v w : Fp} (ha : (Arm.fe10At s.mem (s.reg 1)).Rep 8 v)
    (hb : (Arm.fe10At s.mem (s.reg 2)).Rep 8 w) :
    (Arm.fe10At (Arm.run s Arm.mulInner).mem (s.reg 0)).Rep 1 (v * w) ∧
      Arm.fe10At (Arm.run s Arm.mulInner).mem (s.reg 0) =
        mul (Arm.fe10At s.mem (s.reg 1)) (Arm.fe10At s.mem (s.reg 2)) ∧
      Arm.Returns s (Arm.run s Arm.mulInner) := by
  obtain ⟨h1, h2⟩ := Arm.mulInner_call h ha.mag.bits hb.mag.bits
  exact ⟨by rw [h1]; exact C64_mul ha hb, h1, h2⟩

/-- The same for `secp256k1_fe_sqr_inner`. -/
theorem C73_sqr {s : Arm.St} (h : Arm.Call s [0, 1]) {v : Fp} (ha : (Arm.fe10At s.mem (s.reg 1)).Rep 8 v) :
    (Arm.fe10At (Arm.run s Arm.sqrInner).mem (s.reg 0)).Rep 1 (v ^ 2) ∧
      Arm.fe10At (Arm.run s Arm.sqrInner).mem (s.reg 0) = sqr (Arm.fe10At s.mem (s.reg 1)) ∧
      Arm.Returns s (Arm.run s Arm.sqrInner) := by
  obtain ⟨h1, h2⟩ := Arm.sqrInner_call h ha.mag.bits
  exact ⟨by rw [h1]; exact C64_sqr ha, h1, h2⟩

/-- The bound on the limbs that suffices for equal results is the one that the C code states
(field_10x26_impl.h:407-426).  Without a bound they can differ (see the last example). -/
theorem C73_mul_bits {s : Arm.St} (h : Arm.Call s [0, 1, 2]) (ha : (Arm.fe10At s.mem (s.reg 1)).Bits)
    (hb : (Arm.fe10At s.mem (s.reg 2)).Bits) :
    Arm.fe10At (Arm.run s Arm.mulInner).mem (s.reg 0) =
      mul (Arm.fe10At s.mem (s.reg 1)) (Arm.fe10At s.mem (s.reg 2)) :=
  (Arm.mulInner_call h ha hb).1

/-- A state in which `a` is at 1000, `b` at 2000, the result goes to `a`, and the stack is at 4096.  All limbs are the
largest of magnitude 8. -/
def Arm.exSt : Arm.St where
  reg := fun r => if r = 0 ∨ r = 1 then 1000 else if r = 2 then 2000 else if r = 13 then 4096 else if r = 14 then 77 else if r < 16 then r else 0
  cf := true
  mem := fun x => if x = 1036 ∨ x = 2036 then 16 * (2 ^ 22 - 1) else if x < 4000 then 16 * (2 ^ 26 - 1) else 5

theorem Arm.exSt_call : Arm.Call Arm.exSt [0, 1, 2] := by
  refine ⟨fun r => ?_, fun x => ?_, by decide, by decide, fun r hr x h1 h2 => ?_⟩
  · simp only [Arm.exSt]; split_ifs <;> omega
  · simp only [Arm.exSt]; split_ifs <;> omega
  · simp only [List.mem_cons, List.not_mem_nil, or_false] at hr
    unfold Arm.InFe at h1
    unfold Arm.Frame at h2
    rcases hr with rfl | rfl | rfl <;> simp only [Arm.exSt] at h1 h2 <;> simp at h1 h2 <;> omega

/-- A call with the largest limbs and the result in the place of `a`: the hypotheses hold, and the machine, run by the
kernel, gives these limbs. -/
example : Arm.Call Arm.exSt [0, 1, 2] ∧ (Arm.fe10At Arm.exSt.mem 1000).Mag 8 ∧
    Arm.fe10At (Arm.run Arm.exSt Arm.mulInner).mem 1000 = mul (maxFe10 8) (maxFe10 8) ∧
    (Arm.run Arm.exSt Arm.mulInner).reg 15 = 77 := by
  refine ⟨Arm.exSt_call, by constructor <;> decide, by decide +kernel, by decide +kernel⟩

/-- Without the bound the assembly can differ from the C code: it takes only 32 bits of the last carry
(field_10x26_arm.s:469).  Here all limbs are `2^31`. -/
example : Arm.fe10At (Arm.run { Arm.exSt with mem := fun _ => 2 ^ 31 } Arm.mulInner).mem 1000 ≠
    mul (Arm.fe10At (fun _ => 2 ^ 31) 1000) (Arm.fe10At (fun _ => 2 ^ 31) 2000) := by
  decide +kernel

end Secp
