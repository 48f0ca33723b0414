import Verif.Model.ApiKey

/-!
# Model of `/repo/src/hsort_impl.h` and of `secp256k1_ec_pubkey_sort`

The array is a list of elements of an arbitrary type; for `secp256k1_ec_pubkey_sort` the elements are
pointers.  `none` is an access outside the array.  A comparison returns its value and the number of
calls of the illegal-argument callback that it makes; the functions add these up.  Indices are natural
numbers: no index computed here exceeds the number of elements plus one (see the VERIFY_CHECKs at
hsort_impl.h:17, 22, 54), so `size_t` arithmetic does not wrap.
-/

namespace Secp.Model.Hsort

variable {α : Type}

/-- `cmp(arr + i*stride, arr + j*stride, cmp_data)` -/
def cmpAt (cmp : α → α → Int × Nat) (a : List α) (i j : Nat) : Option (Int × Nat) :=
  match a[i]?, a[j]? with
  | some x, some y => some (cmp x y)
  | _, _ => none

/-- `secp256k1_heap_swap`, hsort_impl.h:34-43, for whole elements. -/
def heapSwap (a : List α) (i j : Nat) : Option (List α) :=
  match a[i]?, a[j]? with
  | some x, some y => some ((a.set i y).set j x)
  | _, _ => none

/-- One round of the loop of `secp256k1_heap_down`, hsort_impl.h:80-96, for `i < heap_size/2`: where
to swap to (`none`: return), and the calls of the callback. -/
def heapStep (cmp : α → α → Int × Nat) (a : List α) (i hs : Nat) : Option (Option Nat × Nat) :=
  let child1 := 2 * i + 1
  let child2 := 2 * i + 1 + 1
  let second (e : Nat) : Option (Option Nat × Nat) :=
    match cmpAt cmp a child1 i with
    | none => none
    | some (r, e') => some (if 0 < r then some child1 else none, e + e')
  if child2 < hs then
    match cmpAt cmp a child2 child1 with
    | none => none
    | some (r, e) =>
      if 0 ≤ r then
        match cmpAt cmp a child2 i with
        | none => none
        | some (r, e') => some (if 0 < r then some child2 else none, e + e')
      else second e
  else second 0

theorem heapStep_gt {cmp : α → α → Int × Nat} {a : List α} {i hs c e : Nat}
    (h : heapStep cmp a i hs = some (some c, e)) : i < c := by
  simp only [heapStep] at h
  split at h
  · split at h
    · cases h
    · split at h
      · split at h
        · cases h
        · have := congrArg Prod.fst (Option.some.inj h)
          simp only at this
          split at this
          · have := Option.some.inj this; omega
          · cases this
      · split at h
        · cases h
        · have := congrArg Prod.fst (Option.some.inj h)
          simp only at this
          split at this
          · have := Option.some.inj this; omega
          · cases this
  · split at h
    · cases h
    · have := congrArg Prod.fst (Option.some.inj h)
      simp only at this
      split at this
      · have := Option.some.inj this; omega
      · cases this

/-- `secp256k1_heap_down`, hsort_impl.h:51-105 -/
def heapDown (cmp : α → α → Int × Nat) (hs i : Nat) (a : List α) (ill : Nat) :
    Option (List α × Nat) :=
  if hi : i < hs / 2 then
    match h : heapStep cmp a i hs with
    | none => none
    | some (none, e) => some (a, ill + e)
    | some (some c, e) =>
      match heapSwap a i c with
      | none => none
      | some a => heapDown cmp hs c a (ill + e)
  else some (a, ill)
termination_by hs - i
decreasing_by
  have := heapStep_gt h
  omega

/-- The first loop of `secp256k1_hsort`, hsort_impl.h:113-115, with `i` rounds to go. -/
def buildHeap (cmp : α → α → Int × Nat) (count : Nat) : Nat → List α → Nat → Option (List α × Nat)
  | 0, a, ill => some (a, ill)
  | i + 1, a, ill =>
    match heapDown cmp count i a ill with
    | none => none
    | some (a, ill) => buildHeap cmp count i a ill

/-- The second loop of `secp256k1_hsort`, hsort_impl.h:116-122, where `i` elements remain. -/
def extract (cmp : α → α → Int × Nat) : Nat → List α → Nat → Option (List α × Nat)
  | 0, a, ill => some (a, ill)
  | i + 1, a, ill =>
    if 1 < i + 1 then
      match heapSwap a 0 i with
      | none => none
      | some a =>
        match heapDown cmp i 0 a ill with
        | none => none
        | some (a, ill) => extract cmp i a ill
    else some (a, ill)

/-- `secp256k1_hsort`, hsort_impl.h:108-123 -/
def hsort (cmp : α → α → Int × Nat) (a : List α) : Option (List α × Nat) :=
  match buildHeap cmp a.length (a.length / 2) a 0 with
  | none => none
  | some (a', ill) => extract cmp a.length a' ill

end Secp.Model.Hsort

namespace Secp.Model

/-- `secp256k1_ec_pubkey_sort_cmp`, secp256k1.c:317-321, for pointers of type `α` with contents
`deref`. -/
def ecPubkeySortCmp {α : Type} (deref : α → Option (List UInt8)) (pk1 pk2 : α) : Int × Nat :=
  let o := ecPubkeyCmp (deref pk1) (deref pk2)
  (o.ret, o.illegal)

/-- `secp256k1_ec_pubkey_sort`, secp256k1.c:323-343.  Memory: the array of pointers.  `none`:
undefined behaviour. -/
def ecPubkeySort {α : Type} (deref : α → Option (List UInt8)) (pubkeys : Option (List α)) :
    Option (Out (Option (List α))) :=
  match pubkeys with
  | none => some (.argFail none)
  | some pubkeys =>
    match Hsort.hsort (ecPubkeySortCmp deref) pubkeys with
    | none => none
    | some (a, ill) => some ⟨1, ill, some a⟩

end Secp.Model
