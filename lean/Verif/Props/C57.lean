import Verif.Props.C54

/-!
# C57: a scratch space of any size has that many bytes

False of the code: `secp256k1_scratch_create` adds the size of its header to the requested size
without an overflow check (scratch_impl.h:13-22), so that for sizes close to `SIZE_MAX` a tiny block
is allocated while the object records the requested size.  `secp256k1_scratch_space_create`
(secp256k1.c:223-226, static: no module of the library itself calls it) passes its argument on.
-/

namespace Secp
open Model

/-- The full statement: for every requested size the block behind a created space has that many
bytes. -/
def C57_statement [Target] : Prop :=
  ∀ al size : ℕ, AlignOk al → size < szMod → (scratchCreate al size).2 = size

/-- The statement fails on every target: with an alignment of 16 bytes and `SIZE_MAX` requested, `malloc`
is asked for 31 bytes, which do not even hold the header and its padding. -/
theorem C57_refuted [T : Target] : ¬ C57_statement := by
  intro h
  have := h 16 (szMod - 1) (.of_small (k := 4) (by decide)) (Nat.sub_lt szMod_pos (by decide))
  clear h
  revert this
  obtain ⟨w, f⟩ := T
  revert w f
  decide +kernel

/-- The consequence is a write outside of the block: the object accepts an allocation of one byte and
clears memory beyond the end of the block. -/
theorem C57_overrun [T : Target] : (scratchAlloc 16 (scratchCreate 16 (szMod - 1)).1 1).1 = some 0 ∧
    ∀ mem : List UInt8, mem.length = (scratchCreate 16 (szMod - 1)).2 →
      scratchAllocMem 16 (scratchCreate 16 (szMod - 1)).1 mem 1 = none := by
  have h0 : (scratchCreate 16 (szMod - 1)).2 = 0 := by
    obtain ⟨w, f⟩ := T
    revert w f
    decide +kernel
  constructor
  · obtain ⟨w, f⟩ := T
    clear h0
    revert w f
    decide +kernel
  intro mem hm
  rw [h0, List.length_eq_zero_iff] at hm
  rw [hm]
  clear h0 hm mem
  obtain ⟨w, f⟩ := T
  revert w f
  decide +kernel

/-- What holds: the statement for all sizes whose sum with the rounded header stays below `SIZE_MAX`. -/
theorem C57_create_partial [Target] {al size : ℕ} (ha : AlignOk al)
    (h : (sizeofScratch + (al - 1)) / al * al + size < szMod) : (scratchCreate al size).2 = size :=
  (C54_create ha h).1

example [T : Target] : (scratchCreate 16 1000000).2 = 1000000 :=
  C57_create_partial (.of_small (k := 4) (by decide)) (by
    obtain ⟨w, f⟩ := T
    revert w f
    decide +kernel)

end Secp
