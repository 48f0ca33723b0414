import Verif.Proof.Asm.Exists
import Verif.Props.C44

/-!
# C72: the x86_64 assembly computes the same as the C code

`Asm.Mul512`, `Asm.Reduce512`, `Asm.Mul` and `Asm.MulShiftVar` (Verif/Model/Asm/ScalarX86.lean) relate the arguments
to the results that the assembly can give: the compiler may put the operands of the three statements of the
reduction into any registers or memory that the constraints allow, and whatever it does not define may have any
contents.  The theorems say that there is exactly one result, and that it is the one of the C code (C44).
-/

namespace Secp
open Model Model.Sc4 Spec

/-- The assembly of `secp256k1_scalar_mul_512` gives the full product of any eight words, and so what the C code
gives, wherever the arrays are (`a` and `b` may be the same array). -/
theorem C72_mul_512 {a b : Sc4} {l : U512} (h : Asm.Mul512 a b l) :
    l.Words ∧ l.nat = a.nat * b.nat ∧ l = mul512 a b := by
  obtain ⟨ha, hb, hl, e⟩ := h.spec
  obtain ⟨h1, h2⟩ := mul512_spec ha hb
  exact ⟨hl, e, U512.nat_inj hl h1 (by rw [e, h2])⟩

/-- The assembly of `secp256k1_scalar_reduce_512` reduces any 512-bit number modulo the group order, for every
allowed choice of places, and so gives what the C code gives. -/
theorem C72_reduce_512 {l : U512} (hl : l.Words) {r : Sc4} (h : Asm.Reduce512 l r) :
    r.Words ∧ r.nat = l.nat % n ∧ r = reduce512 l := by
  obtain ⟨h1, h2⟩ := h.spec hl
  obtain ⟨h3, h4⟩ := reduce512_spec hl
  exact ⟨h1, h2, nat_inj h1 h3 (by rw [h2, h4])⟩

/-- `secp256k1_scalar_mul` (scalar.h:55) built with the assembly: the product modulo the group order; the same words
as from the C code. -/
theorem C72_mul {a b r : Sc4} {v w : Fn} (ha : a.Rep v) (hb : b.Rep w) (h : Asm.Mul a b r) :
    r.Rep (v * w) ∧ r = mul a b := by
  obtain ⟨l, h1, h2⟩ := h
  obtain ⟨hl, -, rfl⟩ := C72_mul_512 h1
  obtain ⟨-, -, rfl⟩ := C72_reduce_512 hl h2
  exact ⟨C44_mul ha hb, rfl⟩

/-- `secp256k1_scalar_mul_shift_var` (scalar.h:94-96) built with the assembly: the product divided by a power of
two, rounded to the nearest integer. -/
theorem C72_mul_shift {a b r : Sc4} {v w : Fn} (ha : a.Rep v) (hb : b.Rep w) {shift : ℕ} (h1 : 256 ≤ shift)
    (h2 : shift ≤ 512) (h : Asm.MulShiftVar a b shift r) :
    r.nat = (v.val * w.val + 2 ^ (shift - 1)) / 2 ^ shift ∧ r = mulShiftVar a b shift := by
  obtain ⟨l, h3, rfl⟩ := h
  obtain ⟨-, -, rfl⟩ := C72_mul_512 h3
  exact ⟨(C44_mul_shift ha hb h1 h2).2.2.1, rfl⟩

/-- The constraints can be met: for all arguments there is a compilation that gives a result. -/
theorem C72_total {a b : Sc4} (ha : a.Words) (hb : b.Words) : ∃ r, Asm.Mul a b r := by
  obtain ⟨l, h1⟩ := Asm.exists_mul512 ha hb
  obtain ⟨hl, -⟩ := C72_mul_512 h1
  obtain ⟨r, h2⟩ := Asm.exists_reduce512 hl
  exact ⟨r, l, h1, h2⟩

/-- So the result is exactly one, and it is the one of the C code. -/
theorem C72_mul_iff {a b : Sc4} (ha : a.Words) (hb : b.Words) (r : Sc4) : Asm.Mul a b r ↔ r = mul a b := by
  have key : ∀ r, Asm.Mul a b r → r = mul a b := by
    rintro r ⟨l, h1, h2⟩
    obtain ⟨hl, -, rfl⟩ := C72_mul_512 h1
    exact (C72_reduce_512 hl h2).2.2
  refine ⟨key r, fun h => ?_⟩
  obtain ⟨r', h'⟩ := C72_total ha hb
  rw [h, ← key r' h']
  exact h'

/-- A product that needs all three steps of the reduction: `(n - 1)^2 = 1`. -/
example : ∃ r : Sc4, Asm.Mul (const (n - 1)) (const (n - 1)) r ∧ r.nat = 1 := by
  have hw := (const_spec (v := n - 1) (by unfold n; decide)).1
  have hv := (const_spec (v := n - 1) (by unfold n; decide)).2
  obtain ⟨r, l, h1, h2⟩ := C72_total hw hw
  obtain ⟨hl, e, -⟩ := C72_mul_512 h1
  refine ⟨r, ⟨l, h1, h2⟩, ?_⟩
  rw [(C72_reduce_512 hl h2).2.1, e, hv]
  unfold n
  decide +kernel

/-- The second statement without the `&` of `p0` -/
def Asm.reduceBWrong : Asm.Stmt :=
  { Asm.reduceB with outs := [(0, false), (1, true), (2, true), (3, false), (4, false)] }

/-- `p0` and the input `m1` in the same register -/
def Asm.placesWrong (k : ℕ) : Asm.Loc :=
  if k = 0 ∨ k = 6 then .reg .rbx else Asm.placesB k

/-- `m0 = 1` and `m1 = 5` -/
def Asm.stWrong : Asm.St :=
  { reg := fun r => if r = .rbx then 5 else 0, cf := false, mem := fun a => if a = 104 then 1 else 0, cell := fun _ => 0 }

/-- The `&` of the constraints is needed, and the model of the constraints sees that: without the one of `p0` the
compiler may put `p0` into the place of `m1`; then for `m0 = 1`, `m1 = 5` and other words 0 the second word of the
result is 1, not 5. -/
example : Asm.reduceBWrong.Allowed (fun _ => False) Asm.placesWrong ∧
    ¬ Asm.reduceB.Allowed (fun _ => False) Asm.placesWrong ∧
    (Asm.stWrong.get (Asm.placesWrong 5) = 1 ∧ Asm.stWrong.get (Asm.placesWrong 6) = 5 ∧
      (Asm.run Asm.placesWrong Asm.stWrong Asm.reduceBWrong.code).get (Asm.placesWrong 1) = 1) ∧
    (reduce512b ⟨1, 5, 0, 0, 0, 0, 0⟩).p1 = 5 := by
  refine ⟨Asm.Stmt.allowed_of (lim := 64) (fun _ h => h.elim) (by decide +kernel), fun h => ?_, ?_, by decide +kernel⟩
  · exact h.early 0 .g 6 (by decide) (by decide) rfl
  · decide +kernel

end Secp
