import Verif.Model.Hsort

/-!
# Model of `/repo/src/hsort_impl.h` on bytes, with its `VERIFY_CHECK`s

The array is one object, a list of bytes, and elements are `stride` bytes of it, at the offset that the
code computes with `size_t` arithmetic (`sizeMax` is `SIZE_MAX`; a product is reduced modulo
`SIZE_MAX + 1`).  `none` is a failed `VERIFY_CHECK` or an access outside the object.  A comparison gets
the bytes of the two elements it is pointed to and returns its value and the number of calls of the
illegal-argument callback.
-/

namespace Secp.Model.HsortMem

/-- `secp256k1_heap_child1`, hsort_impl.h:16-19 -/
def heapChild1 (sizeMax i : Nat) : Option Nat :=
  if i ≤ (sizeMax - 1) / 2 then some (2 * i + 1) else none

/-- `secp256k1_heap_child2`, hsort_impl.h:21-24 -/
def heapChild2 (sizeMax i : Nat) : Option Nat :=
  if i ≤ sizeMax / 2 - 1 then
    match heapChild1 sizeMax i with
    | none => none
    | some c => some (c + 1)
  else none

/-- `memcpy` or `memmove` of the bytes `d` to offset `off`, inside the object. -/
def store (m : List UInt8) (off : Nat) (d : List UInt8) : List UInt8 :=
  m.take off ++ d ++ m.drop (off + d.length)

/-- The bytes that `memcpy(_, arr + off, len)` reads, inside the object. -/
def load (m : List UInt8) (off len : Nat) : List UInt8 := (m.drop off).take len

/-- `secp256k1_heap_swap64`, hsort_impl.h:26-32, for `a` and `b` at these offsets. -/
def heapSwap64 (m : List UInt8) (a b len : Nat) : Option (List UInt8) :=
  if len ≤ 64 ∧ a + len ≤ m.length ∧ b + len ≤ m.length then
    let tmp := load m a len
    let m := store m a (load m b len)
    some (store m b tmp)
  else none

/-- The loop of `secp256k1_heap_swap` and the last call, hsort_impl.h:38-42. -/
def heapSwapLoop (m : List UInt8) (a b len : Nat) : Option (List UInt8) :=
  if 64 < len then
    match heapSwap64 m (a + (len - 64)) (b + (len - 64)) 64 with
    | none => none
    | some m => heapSwapLoop m a b (len - 64)
  else heapSwap64 m a b len
termination_by len

/-- `secp256k1_heap_swap`, hsort_impl.h:34-43 -/
def heapSwap (sizeMax : Nat) (m : List UInt8) (i j stride : Nat) : Option (List UInt8) :=
  heapSwapLoop m (i * stride % (sizeMax + 1)) (j * stride % (sizeMax + 1)) stride

/-- The element that a comparison finds at `arr + i*stride`. -/
def elemAt (sizeMax : Nat) (m : List UInt8) (stride i : Nat) : Option (List UInt8) :=
  if i * stride % (sizeMax + 1) + stride ≤ m.length then
    some (load m (i * stride % (sizeMax + 1)) stride)
  else none

/-- `cmp(arr + i*stride, arr + j*stride, cmp_data)` -/
def cmpAt (sizeMax : Nat) (cmp : List UInt8 → List UInt8 → Int × Nat) (m : List UInt8) (stride i j : Nat) :
    Option (Int × Nat) :=
  match elemAt sizeMax m stride i, elemAt sizeMax m stride j with
  | some x, some y => some (cmp x y)
  | _, _ => none

/-- One round of the loop of `secp256k1_heap_down`, hsort_impl.h:54-96, for `i < heap_size/2`: the checks,
then where to swap to (`none`: return) and the calls of the callback.  The repeated calls of
`secp256k1_heap_child1` and `secp256k1_heap_child2` are evaluated once: they are pure. -/
def heapStep (sizeMax : Nat) (cmp : List UInt8 → List UInt8 → Int × Nat) (m : List UInt8)
    (stride i hs : Nat) : Option (Option Nat × Nat) :=
  if i ≤ sizeMax / 2 - 1 then
    match heapChild1 sizeMax i with
    | none => none
    | some child1 =>
      if child1 < hs then
        match heapChild2 sizeMax i with
        | none => none
        | some child2 =>
          let second (e : Nat) : Option (Option Nat × Nat) :=
            match cmpAt sizeMax cmp m stride child1 i with
            | none => none
            | some (r, e') => some (if 0 < r then some child1 else none, e + e')
          if child2 < hs then
            match cmpAt sizeMax cmp m stride child2 child1 with
            | none => none
            | some (r, e) =>
              if 0 ≤ r then
                match cmpAt sizeMax cmp m stride child2 i with
                | none => none
                | some (r, e') => some (if 0 < r then some child2 else none, e + e')
              else second e
          else second 0
      else none
  else none

/-- `secp256k1_heap_down`, hsort_impl.h:51-105.  The test `i < c` only makes the definition total: a child
has a larger index. -/
def heapDown (sizeMax : Nat) (cmp : List UInt8 → List UInt8 → Int × Nat) (stride hs i : Nat)
    (m : List UInt8) (ill : Nat) : Option (List UInt8 × Nat) :=
  if _hi : i < hs / 2 then
    match heapStep sizeMax cmp m stride i hs with
    | none => none
    | some (none, e) => some (m, ill + e)
    | some (some c, e) =>
      match heapSwap sizeMax m i c stride with
      | none => none
      | some m => if _hc : i < c then heapDown sizeMax cmp stride hs c m (ill + e) else none
  else some (m, ill)
termination_by hs - i

/-- The first loop of `secp256k1_hsort`, hsort_impl.h:113-115, with `i` rounds to go. -/
def buildHeap (sizeMax : Nat) (cmp : List UInt8 → List UInt8 → Int × Nat) (stride count : Nat) :
    Nat → List UInt8 → Nat → Option (List UInt8 × Nat)
  | 0, m, ill => some (m, ill)
  | i + 1, m, ill =>
    match heapDown sizeMax cmp stride count i m ill with
    | none => none
    | some (m, ill) => buildHeap sizeMax cmp stride count i m ill

/-- The second loop of `secp256k1_hsort`, hsort_impl.h:116-122, where `i` elements remain. -/
def extract (sizeMax : Nat) (cmp : List UInt8 → List UInt8 → Int × Nat) (stride : Nat) :
    Nat → List UInt8 → Nat → Option (List UInt8 × Nat)
  | 0, m, ill => some (m, ill)
  | i + 1, m, ill =>
    if 1 < i + 1 then
      match heapSwap sizeMax m 0 i stride with
      | none => none
      | some m =>
        match heapDown sizeMax cmp stride i 0 m ill with
        | none => none
        | some (m, ill) => extract sizeMax cmp stride i m ill
    else some (m, ill)

/-- `secp256k1_hsort`, hsort_impl.h:108-123 -/
def hsort (sizeMax : Nat) (cmp : List UInt8 → List UInt8 → Int × Nat) (m : List UInt8) (count size : Nat) :
    Option (List UInt8 × Nat) :=
  match buildHeap sizeMax cmp size count (count / 2) m 0 with
  | none => none
  | some (m, ill) => extract sizeMax cmp size count m ill

end Secp.Model.HsortMem

namespace Secp.Model

/-- `secp256k1_ec_pubkey_sort`, secp256k1.c:323-343, on the bytes of the array of `count` pointers, each of
`ptrSize` bytes; `deref` gives the public key object behind the bytes of a pointer.  `none`: undefined
behaviour or a failed check. -/
def ecPubkeySortMem (sizeMax ptrSize : Nat) (deref : List UInt8 → Option (List UInt8))
    (pubkeys : Option (List UInt8)) (count : Nat) : Option (Out (Option (List UInt8))) :=
  match pubkeys with
  | none => some (.argFail none)
  | some m =>
    match HsortMem.hsort sizeMax (ecPubkeySortCmp deref) m count ptrSize with
    | none => none
    | some (m, ill) => some ⟨1, ill, some m⟩

end Secp.Model
