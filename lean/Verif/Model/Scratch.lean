/-!
# Model of `/repo/src/scratch_impl.h`

The width of `size_t` and the sizes of the structures depend on the target (`Target`); `size_t` arithmetic
is on natural numbers with the wrap-around written out.  The
alignment `al` is a parameter: `ALIGNMENT` is `__BIGGEST_ALIGNMENT__` of the compiler, or 16
(util.h:170-177).  A pointer into the data area is its offset from `scratch->data`.
-/

namespace Secp.Model

/-- What the layout of the structures depends on: whether `size_t` and pointers have 32 or 64 bits, and
whether the library is built with the field of ten 26-bit limbs (field_10x26.h) or of five 52-bit limbs
(field_5x52.h).  All four combinations exist: for example x86_64, x86_64 with `USE_FORCE_WIDEMUL_INT64`,
i386 or 32-bit ARM, and the x32 ABI.  `int` has 4 bytes on all of them, and the builds are without
`VERIFY`. -/
class Target where
  word32 : Bool
  field26 : Bool

/-- `SIZE_MAX + 1` -/
def szMod [T : Target] : Nat := if T.word32 then 2 ^ 32 else 2 ^ 64

variable [T : Target]

/-- Unsigned subtraction of `size_t` values. -/
def szSub (a b : Nat) : Nat := (a + (szMod - b)) % szMod

/-- `CEIL_DIV`, util.h:180, on `size_t` -/
def szCeilDiv (x y : Nat) : Nat := (1 + szSub x 1 / y) % szMod

/-- `ROUND_TO_ALIGN`, util.h:182 -/
def roundToAlign (al size : Nat) : Nat := szCeilDiv size al * al % szMod

/-- The magic bytes `"scratch\0"`, scratch_impl.h:19 -/
def scratchMagic : List UInt8 := [0x73, 0x63, 0x72, 0x61, 0x74, 0x63, 0x68, 0]

/-- `secp256k1_scratch`, scratch.h:12-22, without the pointer `data`. -/
structure Scratch where
  magic : List UInt8
  allocSize : Nat
  maxSize : Nat
deriving DecidableEq, Repr

/-- `sizeof(secp256k1_scratch)`, scratch.h:12-22: eight bytes, a pointer and two `size_t` -/
def sizeofScratch : Nat := if T.word32 then 20 else 32

/-- `secp256k1_scratch_create`, scratch_impl.h:13-24, when `malloc` succeeds: the object, and the number
of bytes behind `data` in the block returned by `malloc`. -/
def scratchCreate (al size : Nat) : Scratch × Nat :=
  let baseAlloc := roundToAlign al sizeofScratch
  let block := (baseAlloc + size) % szMod
  (⟨scratchMagic, 0, size⟩, block - baseAlloc)

/-- `secp256k1_memcmp_var(scratch->magic, "scratch", 8) != 0` -/
def scratchBad (s : Scratch) : Bool := s.magic != scratchMagic

/-- `secp256k1_scratch_destroy`, scratch_impl.h:26-36, of a non-NULL object: the number of calls of the
error callback, and the object (`none` once freed). -/
def scratchDestroy (s : Scratch) : Nat × Option Scratch :=
  if scratchBad s then (1, some s) else (0, none)

/-- `secp256k1_scratch_checkpoint`, scratch_impl.h:38-44: the result and the number of calls of the
error callback. -/
def scratchCheckpoint (s : Scratch) : Nat × Nat :=
  if scratchBad s then (0, 1) else (s.allocSize, 0)

/-- `secp256k1_scratch_apply_checkpoint`, scratch_impl.h:46-56: the object and the number of calls of the
error callback. -/
def scratchApply (s : Scratch) (checkpoint : Nat) : Scratch × Nat :=
  if scratchBad s then (s, 1)
  else if checkpoint > s.allocSize then (s, 1)
  else ({ s with allocSize := checkpoint }, 0)

/-- `secp256k1_scratch_max_allocation`, scratch_impl.h:58-71: the result and the number of calls of the
error callback. -/
def scratchMaxAllocation (al : Nat) (s : Scratch) (objects : Nat) : Nat × Nat :=
  if scratchBad s then (0, 1)
  else if al > 1 ∧ objects > (szMod - 1) / (al - 1) then (0, 0)
  else if szSub s.maxSize s.allocSize ≤ objects * (al - 1) % szMod then (0, 0)
  else (szSub (szSub s.maxSize s.allocSize) (objects * (al - 1) % szMod), 0)

/-- `secp256k1_scratch_alloc`, scratch_impl.h:73-97: the pointer (`none` is NULL), the object and the
number of calls of the error callback. -/
def scratchAlloc (al : Nat) (s : Scratch) (size : Nat) : Option Nat × Scratch × Nat :=
  let rounded := roundToAlign al size
  if rounded < size then (none, s, 0)
  else if scratchBad s then (none, s, 1)
  else if rounded > szSub s.maxSize s.allocSize then (none, s, 0)
  else (some s.allocSize, { s with allocSize := (s.allocSize + rounded) % szMod }, 0)

/-- `memset(p + off, 0, len)` on a block of memory; `none` is an access outside of the block. -/
def memset0 (mem : List UInt8) (off len : Nat) : Option (List UInt8) :=
  if off + len ≤ mem.length then
    some (mem.take off ++ List.replicate len 0 ++ mem.drop (off + len))
  else none

/-- The `memset` of `secp256k1_scratch_alloc` on a result other than NULL (scratch_impl.h:92-96). -/
def scratchClear (mem : List UInt8) (rounded : Nat) :
    Option Nat × Scratch × Nat → Option (Option Nat × Scratch × List UInt8)
  | (none, s, _) => some (none, s, mem)
  | (some off, s, _) => (memset0 mem off rounded).map fun mem => (some off, s, mem)

/-- `secp256k1_scratch_alloc` with the contents `mem` of the block behind `data`
(scratch_impl.h:73-97); `none` is undefined behaviour. -/
def scratchAllocMem (al : Nat) (s : Scratch) (mem : List UInt8) (size : Nat) :
    Option (Option Nat × Scratch × List UInt8) :=
  scratchClear mem (roundToAlign al size) (scratchAlloc al s size)

end Secp.Model
