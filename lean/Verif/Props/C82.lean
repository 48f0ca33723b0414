import Verif.Props.C04
import Verif.Proof.HsortMem

/-! # C82: sorting on raw bytes, for every element size

`M` is `SIZE_MAX` of the platform.  The array is one object of `count · size` bytes; `none` would be an
access outside of it, or a failed check of a `VERIFY` build. -/

namespace Secp
open Model Spec

/-- The internal sort, for every comparison that decides a total preorder `le` on the elements, for every
size of the elements and every number of them that fits the address space: no access leaves the array, no
check of a `VERIFY` build fails and no size computation wraps; the bytes afterwards are those of the same
elements, whole, in ascending order. -/
theorem C82_hsort (M size : ℕ) {le : Bytes → Bytes → Prop} {cmp : Bytes → Bytes → Int × ℕ}
    (total : ∀ x y, le x y ∨ le y x) (trans : ∀ x y z, le x y → le y z → le x z)
    (ge : ∀ x y, 0 ≤ (cmp x y).1 ↔ le y x) (gt : ∀ x y, 0 < (cmp x y).1 ↔ ¬ le x y)
    {elems : List Bytes} (hsize : ∀ x ∈ elems, x.length = size)
    (hcount : elems.length ≤ M) (hbytes : elems.length * size ≤ M) :
    ∃ (sorted : List Bytes) (ill : ℕ), HsortMem.hsort M cmp elems.flatten elems.length size = some (sorted.flatten, ill) ∧
      sorted.Perm elems ∧ sorted.Pairwise le := by
  obtain ⟨a, ill, h1, h2, h3⟩ := Hsort.hsort_spec ⟨total, trans, ge, gt⟩ elems
  exact ⟨a, ill, HsortMem.hsort_holds hsize hbytes hcount h1, h2, h3⟩

/-- `secp256k1_ec_pubkey_sort` on the bytes of an array of pointers, of any pointer size and whatever the
pointers point to: it returns 1, the array then holds the same pointers, each intact, in ascending order of
`secp256k1_ec_pubkey_cmp`. -/
theorem C82_pubkey_sort (M ptrSize : ℕ) (deref : Bytes → Option Bytes) {ptrs : List Bytes}
    (hsize : ∀ x ∈ ptrs, x.length = ptrSize) (hcount : ptrs.length ≤ M) (hbytes : ptrs.length * ptrSize ≤ M) :
    ∃ (sorted : List Bytes) (ill : ℕ), ecPubkeySortMem M ptrSize deref (some ptrs.flatten) ptrs.length =
        some ⟨1, ill, some sorted.flatten⟩ ∧
      sorted.Perm ptrs ∧
      sorted.Pairwise (fun x y => (ecPubkeyCmp (deref x) (deref y)).ret ≤ 0) := by
  obtain ⟨a, ill, h1, h2, h3⟩ := Hsort.hsort_spec (sortCmp_orders deref) ptrs
  exact ⟨a, ill, by rw [ecPubkeySortMem, HsortMem.hsort_holds hsize hbytes hcount h1], h2, h3⟩

/-- For valid keys: no callback is called and the compressed encodings are in lexicographic order. -/
theorem C82_pubkey_sort_valid (M ptrSize : ℕ) (deref : Bytes → Option Bytes) {ptrs : List Bytes}
    (pt : Bytes → Pt) (hv : ∀ k ∈ ptrs, pt k ≠ 0 ∧ deref k = some (keyObject (pt k)))
    (hsize : ∀ x ∈ ptrs, x.length = ptrSize) (hcount : ptrs.length ≤ M) (hbytes : ptrs.length * ptrSize ≤ M) :
    ∃ sorted : List Bytes, ecPubkeySortMem M ptrSize deref (some ptrs.flatten) ptrs.length =
        some ⟨1, 0, some sorted.flatten⟩ ∧
      sorted.Perm ptrs ∧ sorted.Pairwise (fun x y => compressed (pt x) ≤ compressed (pt y)) := by
  obtain ⟨a, h1, h2, h3⟩ := C04_sort_valid deref ptrs pt hv
  refine ⟨a, ?_, h2, h3⟩
  simp only [ecPubkeySort] at h1
  split at h1
  · cases h1
  · rename_i b ill e
    rw [ecPubkeySortMem, HsortMem.hsort_holds hsize hbytes hcount e]
    simp only [Option.some.injEq, Out.mk.injEq] at h1
    obtain ⟨_, rfl, rfl⟩ := h1
    rfl

/-- Exchanging two elements of an array touches nothing else, for every element size: the chunks of 64 bytes
cover each element exactly once. -/
theorem C82_swap (M : ℕ) {pre x mid y post : Bytes} {i j size : ℕ} (hx : x.length = size) (hy : y.length = size)
    (hi : pre.length = i * size) (hj : (pre ++ x ++ mid).length = j * size)
    (hM : (pre ++ x ++ mid ++ y ++ post).length ≤ M) :
    HsortMem.heapSwap M (pre ++ x ++ mid ++ y ++ post) i j size = some (pre ++ y ++ mid ++ x ++ post) := by
  simp only [List.length_append] at hj hM
  obtain ⟨m', e, l, g⟩ := HsortMem.swapLoop_get size (m := pre ++ x ++ mid ++ y ++ post) (a := i * size)
    (b := j * size) (by simp only [List.length_append]; omega) (by simp only [List.length_append]; omega)
    (by omega)
  rw [HsortMem.heapSwap, Nat.mod_eq_of_lt (by omega), Nat.mod_eq_of_lt (by omega), e]
  congr 1
  refine List.ext_getElem? fun k => ?_
  rw [g]
  simp only [List.getElem?_append, List.length_append]
  by_cases h1 : k < pre.length
  · rw [if_neg (by omega), if_neg (by omega), if_pos (by omega), if_pos (by omega), if_pos (by omega), if_pos h1,
      if_pos (by omega), if_pos (by omega), if_pos (by omega)]
    try rw [if_pos h1]
  · by_cases h2 : k < pre.length + size
    · rw [if_pos (by omega), if_pos (by omega), if_neg (by omega)]
      rw [if_pos (by omega), if_pos (by omega), if_pos (by omega), if_neg (by omega)]
      congr 1; omega
    · by_cases h3 : k < pre.length + size + mid.length
      · rw [if_neg (by omega), if_neg (by omega), if_pos (by omega), if_pos (by omega), if_neg (by omega),
          if_pos (by omega), if_pos (by omega), if_neg (by omega)]
        congr 1; omega
      · by_cases h4 : k < pre.length + size + mid.length + size
        · rw [if_neg (by omega), if_pos (by omega), if_pos (by omega), if_pos (by omega), if_pos (by omega),
            if_neg (by omega), if_pos (by omega), if_neg (by omega)]
          congr 1; omega
        · rw [if_neg (by omega), if_neg (by omega), if_neg (by omega), if_neg (by omega)]
          congr 1; omega

/-- The assumption on the sizes is what the platform gives: 3 pointers of 8 bytes on a 64-bit one. -/
example : ∃ (sorted : List Bytes) (ill : ℕ), ecPubkeySortMem (2 ^ 64 - 1) 8 (fun _ => none)
    (some [List.replicate 8 1, List.replicate 8 2, List.replicate 8 1].flatten) 3 =
      some ⟨1, ill, some (List.flatten sorted)⟩ := by
  obtain ⟨s, ill, h, _⟩ := C82_pubkey_sort (2 ^ 64 - 1) 8 (fun _ => none)
    (ptrs := [List.replicate 8 1, List.replicate 8 2, List.replicate 8 1]) (by simp) (by simp) (by simp)
  exact ⟨s, ill, h⟩

/-- Elements of 130 bytes need three chunks. -/
example : HsortMem.heapSwap (2 ^ 32 - 1) (List.replicate 130 1 ++ List.replicate 130 2) 0 1 130 =
    some (List.replicate 130 2 ++ List.replicate 130 1) := by
  have := C82_swap (2 ^ 32 - 1) (pre := []) (mid := []) (post := []) (x := List.replicate 130 1)
    (y := List.replicate 130 2) (i := 0) (j := 1) (size := 130) (by simp) (by simp) (by simp) (by simp)
    (by simp only [List.length_append, List.length_replicate, List.length_nil]; norm_num)
  simpa using this

/-- Comparing the first bytes decides a total preorder on all byte strings. -/
example : ∃ (sorted : List Bytes) (ill : ℕ), HsortMem.hsort (2 ^ 32 - 1) (fun x y => ((x.getD 0 0).toNat - (y.getD 0 0).toNat, 0))
    [[3, 7], [1, 9], [2, 8], [1, 5]].flatten 4 2 = some (List.flatten sorted, ill) ∧
    sorted.Perm [[3, 7], [1, 9], [2, 8], [1, 5]] := by
  obtain ⟨s, ill, h, h', _⟩ := C82_hsort (2 ^ 32 - 1) 2 (le := fun x y => (x.getD 0 0).toNat ≤ (y.getD 0 0).toNat)
    (cmp := fun x y => ((x.getD 0 0).toNat - (y.getD 0 0).toNat, 0)) (fun x y => le_total _ _)
    (fun _ _ _ => le_trans) (fun x y => by simp) (fun x y => by simp)
    (elems := [[3, 7], [1, 9], [2, 8], [1, 5]]) (by simp) (by simp) (by simp)
  exact ⟨s, ill, h, h'⟩

end Secp
