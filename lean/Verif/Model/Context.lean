import Verif.Model.ApiKey
import Verif.Model.ComputeTable
import Verif.Model.Hash

/-!
# Model of the context functions of `/repo/src/secp256k1.c`

The configuration has no memory checker, so `SECP256K1_CHECKMEM_RUNNING()` is 0 (checkmem.h:93).
Allocation by `checked_malloc` is taken to succeed: when it fails the error callback is called, and
that callback must not return.
-/

namespace Secp.Model

open FeOps

/-- The input of `secp256k1_selftest_sha256`, selftest.h:15 -/
def selftestInput : List UInt8 :=
  [0x46, 0x6f, 0x72, 0x20, 0x74, 0x68, 0x69, 0x73, 0x20, 0x73, 0x61, 0x6d, 0x70, 0x6c, 0x65, 0x2c,
   0x20, 0x74, 0x68, 0x69, 0x73, 0x20, 0x36, 0x33, 0x2d, 0x62, 0x79, 0x74, 0x65, 0x20, 0x73, 0x74,
   0x72, 0x69, 0x6e, 0x67, 0x20, 0x77, 0x69, 0x6c, 0x6c, 0x20, 0x62, 0x65, 0x20, 0x75, 0x73, 0x65,
   0x64, 0x20, 0x61, 0x73, 0x20, 0x69, 0x6e, 0x70, 0x75, 0x74, 0x20, 0x64, 0x61, 0x74, 0x61]

/-- The expected output, selftest.h:16-19 -/
def selftestOutput : List UInt8 :=
  [0xf0, 0x8a, 0x78, 0xcb, 0xba, 0xee, 0x08, 0x2b, 0x05, 0x2a, 0xe0, 0x70, 0x8f, 0x32, 0xfa, 0x1e,
   0x50, 0xc5, 0xc4, 0x21, 0xaa, 0x77, 0x2b, 0xa5, 0xdb, 0xb4, 0x06, 0xa2, 0xea, 0x6b, 0xe3, 0x42]

/-- `secp256k1_selftest_sha256` and `secp256k1_selftest_passes`, selftest.h:14-30 -/
def selftestPasses : Bool :=
  let hasher := Hash.init Hash.uninit
  let hasher := Hash.write hasher selftestInput
  let out := (Hash.finalize hasher).1
  memcmpVar out selftestOutput 32 == 0

/-- `default_illegal_callback`, `default_error_callback`, util.h:112-120 -/
def defaultCallback : Callback := ⟨0, 0⟩

/-- `secp256k1_context_static_`, secp256k1.c:68-73 -/
def contextStatic (cfg : CombCfg) : Ctx :=
  ⟨⟨cfg, false, 0, ⟨0, 0, false⟩, 0⟩, defaultCallback, defaultCallback, false⟩

/-- `secp256k1_context_is_proper`, secp256k1.c:82-84 -/
def contextIsProper (ctx : Ctx) : Bool := ecmultGenIsBuilt ctx.gen

/-- `secp256k1_selftest`, secp256k1.c:86-90: the number of calls of the default error callback. -/
def selftest : Nat := if !selftestPasses then 1 else 0

/-- `sizeof(secp256k1_context)` on the modelled configuration: `int built` and padding (8), scalar
(32), point (2 * 40 + 8), field element (40), two callbacks (32), `int declassify` and padding
(8). -/
def sizeofContext : Nat := 208

/-- `secp256k1_context_preallocated_size`, secp256k1.c:92-110; the callback is the default illegal
callback. -/
def contextPreallocatedSize (flags : UInt32) : Out Nat :=
  if flags &&& flagsTypeMask ≠ flagsTypeContext then ⟨0, 1, 0⟩
  else if flags &&& flagsBitContextDeclassify ≠ 0 then ⟨0, 1, 0⟩
  else ⟨sizeofContext, 0, sizeofContext⟩

/-- `secp256k1_context_preallocated_clone_size`, secp256k1.c:112-116 -/
def contextPreallocatedCloneSize (ctx : Ctx) : Out Nat :=
  if !contextIsProper ctx then .argFail 0 else ⟨sizeofContext, 0, sizeofContext⟩

/-- `secp256k1_context_preallocated_create`, secp256k1.c:118-139, in caller memory (not NULL) with
contents `prealloc`: the new context, or `none` for a NULL result. -/
def contextPreallocatedCreate (prealloc : Ctx) (flags : UInt32) : Out (Option Ctx) :=
  let sz := contextPreallocatedSize flags
  if sz.val = 0 then ⟨0, sz.illegal, none⟩
  else
    ⟨1, sz.illegal,
      some ⟨ecmultGenContextBuild prealloc.gen, defaultCallback, defaultCallback,
        flags &&& flagsBitContextDeclassify ≠ 0⟩⟩

/-- `secp256k1_context_create`, secp256k1.c:141-150: with invalid flags the default illegal callback
is called twice.  Freshly allocated memory has the contents `junk`. -/
def contextCreate (junk : Ctx) (flags : UInt32) : Out (Option Ctx) :=
  let sz := contextPreallocatedSize flags
  let r := contextPreallocatedCreate junk flags
  ⟨r.ret, sz.illegal + r.illegal, r.val⟩

/-- `secp256k1_context_preallocated_clone`, secp256k1.c:152-161; `prealloc` says whether the pointer
is not NULL. -/
def contextPreallocatedClone (ctx : Ctx) (prealloc : Bool) : Out (Option Ctx) :=
  if !prealloc then .argFail none
  else if !contextIsProper ctx then .argFail none
  else ⟨1, 0, some ctx⟩

/-- `secp256k1_context_clone`, secp256k1.c:163-174 -/
def contextClone (ctx : Ctx) : Out (Option Ctx) :=
  if !contextIsProper ctx then .argFail none
  else
    let sz := contextPreallocatedCloneSize ctx
    let r := contextPreallocatedClone ctx true
    ⟨r.ret, sz.illegal + r.illegal, r.val⟩

/-- `secp256k1_context_preallocated_destroy`, secp256k1.c:176-185, with a non-NULL context. -/
def contextPreallocatedDestroy (ctx : Ctx) : Out Ctx :=
  if !contextIsProper ctx then .argFail ctx
  else ⟨0, 0, { ctx with gen := ecmultGenContextClear ctx.gen }⟩

/-- `secp256k1_context_destroy`, secp256k1.c:187-197, with a non-NULL context: `none` is freed
memory. -/
def contextDestroy (ctx : Ctx) : Out (Option Ctx) :=
  if !contextIsProper ctx then .argFail (some ctx)
  else
    let r := contextPreallocatedDestroy ctx
    ⟨r.ret, r.illegal, none⟩

/-- `secp256k1_context_set_illegal_callback`, secp256k1.c:199-209.  `isStatic` is the comparison of
the pointer with `secp256k1_context_static`; function 0 is NULL and also stands for the default
function. -/
def contextSetIllegalCallback (isStatic : Bool) (ctx : Ctx) (fn data : Nat) : Out Ctx :=
  if isStatic then .argFail ctx else ⟨0, 0, { ctx with illegalCallback := ⟨fn, data⟩ }⟩

/-- `secp256k1_context_set_error_callback`, secp256k1.c:211-221 -/
def contextSetErrorCallback (isStatic : Bool) (ctx : Ctx) (fn data : Nat) : Out Ctx :=
  if isStatic then .argFail ctx else ⟨0, 0, { ctx with errorCallback := ⟨fn, data⟩ }⟩

/-- The contexts a program can hold: made by `secp256k1_context_create` (or in caller memory) in a
build with any comb configuration (`CombCfg.Build`), then cloned, randomized with any seeds and given any
callbacks, any number of times and in any order. -/
inductive LiveCtx : Ctx → Prop
  | create {junk ctx : Ctx} {flags : UInt32}
      (hc : junk.gen.cfg.Build)
      (h : (contextCreate junk flags).val = some ctx) : LiveCtx ctx
  | preallocatedCreate {junk ctx : Ctx} {flags : UInt32}
      (hc : junk.gen.cfg.Build)
      (h : (contextPreallocatedCreate junk flags).val = some ctx) : LiveCtx ctx
  | clone {ctx ctx' : Ctx} (h : LiveCtx ctx) (e : (contextClone ctx).val = some ctx') : LiveCtx ctx'
  | preallocatedClone {ctx ctx' : Ctx} (h : LiveCtx ctx)
      (e : (contextPreallocatedClone ctx true).val = some ctx') : LiveCtx ctx'
  | randomize {ctx : Ctx} (h : LiveCtx ctx) (seed : Option (List UInt8)) :
      LiveCtx (contextRandomize ctx seed).val
  | setIllegal {ctx : Ctx} (h : LiveCtx ctx) (fn data : Nat) :
      LiveCtx (contextSetIllegalCallback false ctx fn data).val
  | setError {ctx : Ctx} (h : LiveCtx ctx) (fn data : Nat) :
      LiveCtx (contextSetErrorCallback false ctx fn data).val

end Secp.Model

namespace Secp.Model

/-! ## A program's contexts

A state machine over the functions above: the static context, and contexts made in allocated or in
caller memory, addressed by their index.  `none` as a result of `step` is undefined behaviour: use of
a context after its destruction, or `secp256k1_context_destroy` on caller memory (and the reverse). -/

/-- A context object in memory and whether it was allocated by the library. -/
structure Slot where
  ctx : Ctx
  malloced : Bool

/-- All context objects; a destroyed one is `none`. -/
structure World where
  static : Ctx
  heap : List (Option Slot)

/-- Calls a program can make.  A reference `none` is `secp256k1_context_static`. -/
inductive CtxOp
  | create (junk : Ctx) (flags : UInt32)
  | preallocatedCreate (junk : Ctx) (flags : UInt32)
  | clone (ref : Option Nat)
  | preallocatedClone (ref : Option Nat) (prealloc : Bool)
  | randomize (ref : Option Nat) (seed : Option (List UInt8))
  | setIllegal (ref : Option Nat) (fn data : Nat)
  | setError (ref : Option Nat) (fn data : Nat)
  | destroy (ref : Option Nat)
  | preallocatedDestroy (ref : Option Nat)

/-- The slot behind an index. -/
def World.slot (w : World) (i : Nat) : Option Slot := (w.heap[i]?).join

/-- The context behind a reference. -/
def World.get (w : World) : Option Nat → Option Ctx
  | none => some w.static
  | some i => (w.slot i).map Slot.ctx

/-- Overwriting the context behind a reference. -/
def World.set (w : World) (ref : Option Nat) (ctx : Ctx) : World :=
  match ref with
  | none => { w with static := ctx }
  | some i => { w with heap := w.heap.modify i fun s => s.map fun s => { s with ctx := ctx } }

/-- Adding a new object. -/
def World.add (w : World) (ctx : Option Ctx) (malloced : Bool) : World :=
  match ctx with
  | none => w
  | some c => { w with heap := w.heap ++ [some ⟨c, malloced⟩] }

/-- One call: the new state, the return value and the number of callback calls; `none` is undefined
behaviour. -/
def World.step (w : World) (op : CtxOp) : Option (World × Int × Nat) :=
  match op with
  | .create junk flags =>
    let r := contextCreate { junk with gen := { junk.gen with cfg := w.static.gen.cfg } } flags
    some (w.add r.val true, r.ret, r.illegal)
  | .preallocatedCreate junk flags =>
    let r := contextPreallocatedCreate { junk with gen := { junk.gen with cfg := w.static.gen.cfg } } flags
    some (w.add r.val false, r.ret, r.illegal)
  | .clone ref => do
    let c ← w.get ref
    let r := contextClone c
    return (w.add r.val true, r.ret, r.illegal)
  | .preallocatedClone ref prealloc => do
    let c ← w.get ref
    let r := contextPreallocatedClone c prealloc
    return (w.add r.val false, r.ret, r.illegal)
  | .randomize ref seed => do
    let c ← w.get ref
    let r := contextRandomize c seed
    return (w.set ref r.val, r.ret, r.illegal)
  | .setIllegal ref fn data => do
    let c ← w.get ref
    let r := contextSetIllegalCallback ref.isNone c fn data
    return (w.set ref r.val, r.ret, r.illegal)
  | .setError ref fn data => do
    let c ← w.get ref
    let r := contextSetErrorCallback ref.isNone c fn data
    return (w.set ref r.val, r.ret, r.illegal)
  | .destroy none =>
    let r := contextDestroy w.static
    some (w, r.ret, r.illegal)
  | .destroy (some i) => do
    let s ← w.slot i
    if s.malloced then
      let r := contextDestroy s.ctx
      return ({ w with heap := w.heap.set i (r.val.map fun c => ⟨c, true⟩) }, r.ret, r.illegal)
    else none
  | .preallocatedDestroy none =>
    let r := contextPreallocatedDestroy w.static
    some ({ w with static := r.val }, r.ret, r.illegal)
  | .preallocatedDestroy (some i) => do
    let s ← w.slot i
    if s.malloced then none
    else
      let r := contextPreallocatedDestroy s.ctx
      return ({ w with heap := w.heap.set i none }, r.ret, r.illegal)

/-- A sequence of calls. -/
def World.run (w : World) : List CtxOp → Option World
  | [] => some w
  | op :: ops => do
    let r ← w.step op
    r.1.run ops

/-- A program starts with the static context only. -/
def World.start (cfg : CombCfg) : World := ⟨contextStatic cfg, []⟩

end Secp.Model
