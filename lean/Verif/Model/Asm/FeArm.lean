import Verif.Model.Asm.FieldArm
import Verif.Model.FeMem
import Verif.Model.Modinv32
import Verif.Spec.Limbs10

/-!
# The 32-bit field with the ARM assembly compiled in

With `USE_EXTERNAL_ASM` the functions `secp256k1_fe_mul_inner` and `secp256k1_fe_sqr_inner` of
`/repo/src/field_10x26_impl.h` are those of `/repo/src/asm/field_10x26_arm.s` (field_10x26_impl.h:390-394) and all other
functions of the field are the C code.  `FeArm` is that field: an element is a `Fe10`, and a multiplication runs the
instructions.
-/

namespace Secp.Model

/-- Where the compiled callers put things: the machine state at a call of `secp256k1_fe_mul_inner` and of
`secp256k1_fe_sqr_inner` with given operands (field_10x26_impl.h:1006-1012).  Any choice of registers, addresses, stack and remaining
memory is allowed, as long as the arguments are passed as `Arm.Call` says.  Simplification: the state is a function of the operands;
by C73 the result does not depend on it. -/
class Arm.Caller where
  mulSt : Fe10 → Fe10 → Arm.St
  sqrSt : Fe10 → Arm.St
  mul_call : ∀ {a b : Fe10}, a.Mag 8 → b.Mag 8 → Arm.Call (mulSt a b) [0, 1, 2]
  mul_a : ∀ {a b : Fe10}, a.Mag 8 → b.Mag 8 → Arm.fe10At (mulSt a b).mem ((mulSt a b).reg 1) = a
  mul_b : ∀ {a b : Fe10}, a.Mag 8 → b.Mag 8 → Arm.fe10At (mulSt a b).mem ((mulSt a b).reg 2) = b
  sqr_call : ∀ {a : Fe10}, a.Mag 8 → Arm.Call (sqrSt a) [0, 1]
  sqr_a : ∀ {a : Fe10}, a.Mag 8 → Arm.fe10At (sqrSt a).mem ((sqrSt a).reg 1) = a

/-- A field element of the ARM build, `secp256k1_fe` of field_10x26.h:12-28 -/
structure FeArm where
  fe : Fe10

namespace FeArm

variable [Arm.Caller]

/-- `secp256k1_fe_impl_mul`, field_10x26_impl.h:1006-1008, with the `secp256k1_fe_mul_inner` of
field_10x26_arm.s:40-515 -/
def mul (a b : FeArm) : FeArm :=
  let s := Arm.Caller.mulSt a.fe b.fe
  ⟨Arm.fe10At (Arm.run s Arm.mulInner).mem (s.reg 0)⟩

/-- `secp256k1_fe_impl_sqr`, field_10x26_impl.h:1010-1012, with the `secp256k1_fe_sqr_inner` of
field_10x26_arm.s:527-914 -/
def sqr (a : FeArm) : FeArm :=
  let s := Arm.Caller.sqrSt a.fe
  ⟨Arm.fe10At (Arm.run s Arm.sqrInner).mem (s.reg 0)⟩

/-- The interface of field.h in the ARM build.  The inversions (field_10x26_impl.h:1189-1207) do not fail and end
within 25 iterations (C66); the other values given here are not used. -/
instance instFeOps : FeOps FeArm where
  setInt k := ⟨Fe10.setInt k⟩
  normalizeWeak a := ⟨a.fe.normalizeWeak⟩
  normalize a := ⟨a.fe.normalize⟩
  normalizesToZero a := a.fe.normalizesToZero
  negate a m := ⟨a.fe.negate m⟩
  addInt a k := ⟨a.fe.addInt k⟩
  mulInt a k := ⟨a.fe.mulInt k⟩
  add r a := ⟨r.fe.add a.fe⟩
  mul := mul
  sqr := sqr
  half a := ⟨a.fe.half⟩
  cmov r a flag := ⟨Fe10.cmov r.fe a.fe (if flag then 1 else 0)⟩
  inv a := ⟨(Fe10.inv? a.fe).getD ⟨0, 0, 0, 0, 0, 0, 0, 0, 0, 0⟩⟩
  invVar a := ⟨(Fe10.invVar? 25 a.fe).getD ⟨0, 0, 0, 0, 0, 0, 0, 0, 0, 0⟩⟩
  feConst k := ⟨Fe10.feConst k⟩
  ofStorage x := ⟨Fe10.fromStorage (Fe10.storageConst x)⟩

/-- `secp256k1_fe_impl_is_square_var`, field_10x26_impl.h:1209-1230: the square root is computed with the assembly. -/
def isSquareVar? (x : FeArm) : Option Bool :=
  let tmp := x.fe.normalizeVar
  if tmp.isZero then some true
  else
    (M32.jacobi32MaybeVar (Fe10.toSigned30 tmp) M32.modinfoFe).bind fun jac =>
    if jac = 0 then some (FeOps.sqrt (⟨tmp⟩ : FeArm)).2 else some (decide (jac ≥ 0))

/-- The functions that read and write the limbs, as `Fe10.instFeMem` -/
instance instFeMem : FeMem FeArm where
  isZero a := a.fe.isZero
  isOdd a := a.fe.isOdd
  cmpVar a b := Fe10.cmpVar a.fe b.fe
  setB32Mod b := ⟨Fe10.setB32Mod (byteOf b)⟩
  setB32Limit b := (⟨Fe10.setB32Mod (byteOf b)⟩, (Fe10.setB32Mod (byteOf b)).setB32LimitRet)
  getB32 a := a.fe.getB32.map UInt8.ofNat
  toMem a :=
    let s := a.fe.toStorage
    Spec.leBytes 4 s.n0 ++ Spec.leBytes 4 s.n1 ++ Spec.leBytes 4 s.n2 ++ Spec.leBytes 4 s.n3 ++ Spec.leBytes 4 s.n4 ++
      Spec.leBytes 4 s.n5 ++ Spec.leBytes 4 s.n6 ++ Spec.leBytes 4 s.n7
  fromMem b := ⟨Fe10.fromStorage ⟨leWord 4 b 0, leWord 4 b 1, leWord 4 b 2, leWord 4 b 3, leWord 4 b 4,
    leWord 4 b 5, leWord 4 b 6, leWord 4 b 7⟩⟩
  isSquareVar a := (isSquareVar? a).getD false

end FeArm
end Secp.Model
