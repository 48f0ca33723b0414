import Verif.Proof.Scratch
import Mathlib.Data.List.Basic

/-!
# C54: scratch allocations never overlap or overrun

A program makes a scratch space of `size` bytes and then performs any sequence of allocations,
checkpoints, restores of a checkpoint taken before (possibly a stale one) and writes into memory it
holds.  The record of the live allocations is kept by the program below, not by the library.
-/

namespace Secp
open Model

variable [Target]

/-- What a program does with a scratch space. -/
inductive ScratchOp
  /-- `secp256k1_scratch_alloc` -/
  | alloc (size : ℕ)
  /-- `secp256k1_scratch_checkpoint`; the result is remembered -/
  | checkpoint
  /-- `secp256k1_scratch_apply_checkpoint` with the `i`-th checkpoint remembered -/
  | restore (i : ℕ)
  /-- a store of one byte at the offset `k` of the `i`-th live allocation -/
  | store (i k : ℕ) (b : UInt8)

/-- The space, the memory behind it, the live allocations (offset and requested size) and the
checkpoints taken. -/
structure ScratchProg where
  s : Scratch
  mem : List UInt8
  live : List (ℕ × ℕ)
  saved : List ℕ

/-- The program after an allocation of `size` bytes with the given result. -/
def ScratchProg.allocated (p : ScratchProg) (size : ℕ) :
    Option (Option ℕ × Scratch × List UInt8) → Option ScratchProg
  | none => none
  | some (none, s, mem) => some { p with s := s, mem := mem }
  | some (some off, s, mem) => some { p with s := s, mem := mem, live := (off, size) :: p.live }

/-- One operation; `none` is an access outside of the memory of the space.  A restore of the
checkpoint `c` ends the allocations that reach beyond `c`. -/
def ScratchProg.step (al : ℕ) (p : ScratchProg) : ScratchOp → Option ScratchProg
  | .alloc size => p.allocated size (scratchAllocMem al p.s p.mem size)
  | .checkpoint => some { p with saved := p.saved ++ [(scratchCheckpoint p.s).1] }
  | .restore i =>
    match p.saved[i]? with
    | none => some p
    | some c =>
      let r := scratchApply p.s c
      if r.2 = 0 then
        some { p with s := r.1, live := p.live.filter fun a => a.1 + a.2 ≤ c }
      else some { p with s := r.1 }
  | .store i k b =>
    match p.live[i]? with
    | none => some p
    | some a =>
      if k < a.2 then
        if a.1 + k < p.mem.length then some { p with mem := p.mem.set (a.1 + k) b } else none
      else some p

/-- A sequence of operations; all sizes are `size_t` values. -/
def ScratchProg.run (al : ℕ) (p : ScratchProg) : List ScratchOp → Option ScratchProg
  | [] => some p
  | op :: ops => (p.step al op).bind fun p => p.run al ops

/-- A size argument is a `size_t`. -/
def ScratchOp.Valid : ScratchOp → Prop
  | .alloc size => size < szMod
  | _ => True

/-- The state after `secp256k1_scratch_create`; the memory has any contents. -/
def ScratchProg.start (al size : ℕ) (mem : List UInt8) : ScratchProg :=
  ⟨(scratchCreate al size).1, mem, [], []⟩

/-- The alignment is a power of two and a `size_t`. -/
def AlignOk (al : ℕ) : Prop := ∃ k, al = 2 ^ k ∧ al < szMod

theorem AlignOk.dvd {al : ℕ} (h : AlignOk al) : al ∣ szMod := by
  obtain ⟨k, rfl, hk⟩ := h
  rcases szMod_cases with e | e <;> rw [e] at hk ⊢ <;>
    exact pow_dvd_pow 2 ((Nat.pow_lt_pow_iff_right (by omega)).1 hk).le

theorem AlignOk.of_small {k : ℕ} (h : k < 32) : AlignOk (2 ^ k) :=
  ⟨k, rfl, lt_of_lt_of_le (Nat.pow_lt_pow_right (by omega) h) szMod_big⟩

theorem AlignOk.pos {al : ℕ} (h : AlignOk al) : 0 < al :=
  Nat.pos_of_dvd_of_pos h.dvd szMod_pos

/-- The invariant. -/
structure ScratchInv (al size : ℕ) (p : ScratchProg) : Prop where
  ok : ScratchOk p.s
  max : p.s.maxSize = size
  mem : p.mem.length = size
  dvd : al ∣ p.s.allocSize
  saved : ∀ c ∈ p.saved, al ∣ c
  live : ∀ a ∈ p.live, al ∣ a.1 ∧ a.1 + a.2 ≤ p.s.allocSize
  disj : p.live.Pairwise fun a b => a.1 + a.2 ≤ b.1 ∨ b.1 + b.2 ≤ a.1

omit [Target] in
theorem memset0_some {mem : List UInt8} {off len : ℕ} (h : off + len ≤ mem.length) :
    memset0 mem off len = some (mem.take off ++ List.replicate len 0 ++ mem.drop (off + len)) :=
  if_pos h

/-- A restore directly undoes everything since the checkpoint was taken, and stale or foreign
checkpoints beyond the allocated part are refused with a call of the error callback. -/
theorem C54_restore {s : Scratch} (h : ScratchOk s) (c : ℕ) :
    scratchApply s c = if c ≤ s.allocSize then ({ s with allocSize := c }, 0) else (s, 1) := by
  unfold scratchApply
  rw [h.not_bad, if_neg (by decide)]
  by_cases h1 : c ≤ s.allocSize
  · rw [if_pos h1, if_neg (by omega)]
  · rw [if_neg h1, if_pos (by omega)]

theorem ScratchInv.step {al size : ℕ} (ha : AlignOk al) {p : ScratchProg} (h : ScratchInv al size p)
    {op : ScratchOp} (ho : op.Valid) : ∃ p', p.step al op = some p' ∧ ScratchInv al size p' := by
  cases op with
  | alloc n =>
    have e := scratchAlloc_eq ha.dvd h.ok (size := n) ho
    by_cases hc : roundUp al n ≤ p.s.maxSize - p.s.allocSize
    · rw [if_pos hc] at e
      have hle := h.ok.le
      have hlt := h.ok.lt
      have hn := le_roundUp (n := n) ha.pos
      have hm := h.mem
      have hx := h.max
      have hr : roundToAlign al n = roundUp al n := by
        rw [roundToAlign_eq ha.dvd ho, Nat.mod_eq_of_lt (by omega)]
      refine ⟨⟨{ p.s with allocSize := p.s.allocSize + roundUp al n },
        p.mem.take p.s.allocSize ++ List.replicate (roundUp al n) 0 ++
          p.mem.drop (p.s.allocSize + roundUp al n), (p.s.allocSize, n) :: p.live, p.saved⟩, ?_, ?_⟩
      · rw [ScratchProg.step, scratchAllocMem, e, hr, scratchClear, memset0_some (by omega)]
        rfl
      · refine ⟨⟨h.ok.magic, ?_, h.ok.lt⟩, h.max, ?_, Nat.dvd_add h.dvd (roundUp_dvd _ _), h.saved, ?_, ?_⟩
        · simp only; omega
        · simp only [List.length_append, List.length_take, List.length_replicate, List.length_drop]
          omega
        · intro a hmem
          rcases List.mem_cons.1 hmem with rfl | hmem
          · exact ⟨h.dvd, Nat.add_le_add_left hn _⟩
          · obtain ⟨h1, h2⟩ := h.live a hmem
            exact ⟨h1, h2.trans (Nat.le_add_right _ _)⟩
        · refine List.pairwise_cons.2 ⟨fun a hmem => .inr ?_, h.disj⟩
          exact (h.live a hmem).2
    · rw [if_neg hc] at e
      refine ⟨p, ?_, h⟩
      rw [ScratchProg.step, scratchAllocMem, e]
      rfl
  | checkpoint =>
    refine ⟨_, rfl, ⟨h.ok, h.max, h.mem, h.dvd, ?_, h.live, h.disj⟩⟩
    intro c hc
    rcases List.mem_append.1 hc with hc | hc
    · exact h.saved c hc
    · rw [List.mem_singleton] at hc
      rw [hc, scratchCheckpoint, h.ok.not_bad]
      exact h.dvd
  | restore i =>
    cases hi : p.saved[i]? with
    | none => exact ⟨p, by simp only [ScratchProg.step, hi], h⟩
    | some c =>
      have hc := h.saved c (List.mem_of_getElem? hi)
      have hle := h.ok.le
      have e := C54_restore h.ok c
      by_cases h1 : c ≤ p.s.allocSize
      · rw [if_pos h1] at e
        refine ⟨⟨{ p.s with allocSize := c }, p.mem, p.live.filter fun a => a.1 + a.2 ≤ c, p.saved⟩,
          by simp only [ScratchProg.step, hi, e, if_true],
          ⟨⟨h.ok.magic, by simp only; omega, h.ok.lt⟩, h.max, h.mem, hc, h.saved, ?_, ?_⟩⟩
        · intro a hmem
          rw [List.mem_filter] at hmem
          exact ⟨(h.live a hmem.1).1, by simpa using hmem.2⟩
        · exact h.disj.filter _
      · rw [if_neg h1] at e
        exact ⟨p, by simp only [ScratchProg.step, hi, e]; rfl, h⟩
  | store i k b =>
    cases hi : p.live[i]? with
    | none => exact ⟨p, by simp only [ScratchProg.step, hi], h⟩
    | some a =>
      obtain ⟨h1, h2⟩ := h.live a (List.mem_of_getElem? hi)
      have hle := h.ok.le
      have hm := h.mem
      have hx := h.max
      by_cases hk : k < a.2
      · have hb : a.1 + k < p.mem.length := by omega
        exact ⟨{ p with mem := p.mem.set (a.1 + k) b },
          by simp only [ScratchProg.step, hi, if_pos hk, if_pos hb],
          ⟨h.ok, h.max, by rw [List.length_set, h.mem], h.dvd, h.saved, h.live, h.disj⟩⟩
      · exact ⟨p, by simp only [ScratchProg.step, hi, if_neg hk], h⟩

theorem ScratchInv.run {al size : ℕ} (ha : AlignOk al) : ∀ {ops : List ScratchOp} {p : ScratchProg},
    ScratchInv al size p → (∀ op ∈ ops, op.Valid) →
    ∃ p', p.run al ops = some p' ∧ ScratchInv al size p'
  | [], p, h, _ => ⟨p, rfl, h⟩
  | op :: ops, p, h, ho => by
    obtain ⟨p1, e1, h1⟩ := h.step ha (ho op (by simp))
    obtain ⟨p2, e2, h2⟩ := ScratchInv.run ha h1 fun o m => ho o (List.mem_cons_of_mem _ m)
    exact ⟨p2, by rw [ScratchProg.run, e1]; exact e2, h2⟩

theorem scratchInv_start {al size : ℕ} {mem : List UInt8} (hs : size < szMod)
    (hm : mem.length = size) : ScratchInv al size (.start al size mem) :=
  ⟨⟨rfl, Nat.zero_le _, hs⟩, rfl, hm, dvd_zero _, by simp [ScratchProg.start],
    by simp [ScratchProg.start], by simp [ScratchProg.start]⟩

theorem sizeofScratch_lt : sizeofScratch < 2 ^ 32 := by
  unfold sizeofScratch
  split_ifs <;> decide

/-- The header of a space created with `size` bytes is followed by `size` bytes, at an aligned
distance, if the sum of the sizes does not wrap around. -/
theorem C54_create {al size : ℕ} (ha : AlignOk al) (h : roundUp al sizeofScratch + size < szMod) :
    (scratchCreate al size).2 = size ∧ al ∣ roundToAlign al sizeofScratch := by
  have e : roundToAlign al sizeofScratch = roundUp al sizeofScratch := by
    rw [roundToAlign_eq ha.dvd (lt_of_lt_of_le sizeofScratch_lt szMod_big)]
    exact Nat.mod_eq_of_lt (lt_of_le_of_lt (Nat.le_add_right _ _) h)
  refine ⟨?_, by rw [e]; exact roundUp_dvd _ _⟩
  unfold scratchCreate
  simp only
  rw [e, Nat.mod_eq_of_lt (show _ < szMod from h)]
  omega

/-- After any sequence of operations on a space of `size` bytes no access has left the space, and the
live allocations are aligned, inside the space and pairwise disjoint. -/
theorem C54_live {al size : ℕ} (ha : AlignOk al) (hs : size < szMod) {mem : List UInt8}
    (hm : mem.length = size) (ops : List ScratchOp) (ho : ∀ op ∈ ops, op.Valid) :
    ∃ p, (ScratchProg.start al size mem).run al ops = some p ∧
      (∀ a ∈ p.live, al ∣ a.1 ∧ a.1 + a.2 ≤ size) ∧
      p.live.Pairwise fun a b => a.1 + a.2 ≤ b.1 ∨ b.1 + b.2 ≤ a.1 := by
  obtain ⟨p, e, h⟩ := ScratchInv.run ha (scratchInv_start hs hm) ho
  refine ⟨p, e, fun a m => ?_, h.disj⟩
  obtain ⟨h1, h2⟩ := h.live a m
  have := h.ok.le
  have := h.max
  exact ⟨h1, by omega⟩

/-- In a state reached by a program an allocation succeeds exactly when the size, rounded up to a
multiple of the alignment as an exact integer, is left in the space; otherwise the result is NULL and
nothing changes.  On success the memory is zero, and all other bytes of the space, in particular those
of the live allocations, keep their contents. -/
theorem C54_alloc {al size : ℕ} (ha : AlignOk al) (hs : size < szMod) {mem : List UInt8}
    (hm : mem.length = size) (ops : List ScratchOp) (ho : ∀ op ∈ ops, op.Valid) {p : ScratchProg}
    (hp : (ScratchProg.start al size mem).run al ops = some p) {n : ℕ} (hn : n < szMod) :
    (size < p.s.allocSize + (n + (al - 1)) / al * al →
      scratchAllocMem al p.s p.mem n = some (none, p.s, p.mem)) ∧
    (p.s.allocSize + (n + (al - 1)) / al * al ≤ size →
      ∃ off s' mem', scratchAllocMem al p.s p.mem n = some (some off, s', mem') ∧
        mem'.length = size ∧ s'.allocSize ≤ size ∧ off + n ≤ s'.allocSize ∧
        (∀ k, k < n → mem'[off + k]? = some 0) ∧
        (∀ k, k < off → mem'[k]? = p.mem[k]?) ∧ (∀ k, s'.allocSize ≤ k → mem'[k]? = p.mem[k]?) ∧
        ∀ a ∈ p.live, ∀ k, k < a.2 → mem'[a.1 + k]? = p.mem[a.1 + k]?) := by
  obtain ⟨p', e, h⟩ := ScratchInv.run ha (scratchInv_start hs hm) ho
  obtain rfl : p' = p := by rw [e] at hp; exact Option.some.inj hp
  have e := scratchAlloc_eq ha.dvd h.ok (size := n) hn
  have hle := h.ok.le
  have hlt := h.ok.lt
  have hR := le_roundUp (n := n) ha.pos
  have hx := h.max
  have hml := h.mem
  have hrw : (n + (al - 1)) / al * al = roundUp al n := rfl
  rw [hrw]
  constructor
  · intro hc
    rw [if_neg (by omega)] at e
    rw [scratchAllocMem, e]
    rfl
  · intro hc
    rw [if_pos (by omega)] at e
    have hr : roundToAlign al n = roundUp al n := by
      rw [roundToAlign_eq ha.dvd hn, Nat.mod_eq_of_lt (by omega)]
    have hset := memset0_some (mem := p'.mem) (off := p'.s.allocSize) (len := roundUp al n) (by omega)
    refine ⟨p'.s.allocSize, { p'.s with allocSize := p'.s.allocSize + roundUp al n },
      p'.mem.take p'.s.allocSize ++ List.replicate (roundUp al n) 0 ++
        p'.mem.drop (p'.s.allocSize + roundUp al n), ?_, ?_, ?_, ?_, ?_, ?_, ?_, ?_⟩
    · rw [scratchAllocMem, e, hr, scratchClear, hset]
      rfl
    · simp only [List.length_append, List.length_take, List.length_replicate, List.length_drop]
      omega
    · simp only; omega
    · simp only; omega
    · intro k hk
      rw [List.getElem?_append_left (by simp; omega), List.getElem?_append_right (by simp),
        List.getElem?_replicate, List.length_take, if_pos (by omega)]
    all_goals
      have hlow : ∀ k, k < p'.s.allocSize → (List.take p'.s.allocSize p'.mem ++
          List.replicate (roundUp al n) 0 ++
          List.drop (p'.s.allocSize + roundUp al n) p'.mem)[k]? = p'.mem[k]? := by
        intro k hk
        rw [List.getElem?_append_left (by simp; omega), List.getElem?_append_left (by simp; omega),
          List.getElem?_take_of_lt hk]
    · exact hlow
    · intro k hk
      simp only at hk
      rw [List.getElem?_append_right (by simp; omega), List.getElem?_drop]
      congr 1
      simp only [List.length_append, List.length_take, List.length_replicate]
      omega
    · intro a hmem k hk
      have := (h.live a hmem).2
      exact hlow _ (by omega)

/-- Allocations in sequence. -/
def allocAll (al : ℕ) (s : Scratch) : List ℕ → List (Option ℕ) × Scratch
  | [] => ([], s)
  | n :: ns =>
    let r := scratchAlloc al s n
    let t := allocAll al r.2.1 ns
    (r.1 :: t.1, t.2)

theorem allocAll_ok {al : ℕ} (ha : AlignOk al) : ∀ {ns : List ℕ} {s : Scratch} (_ : ScratchOk s)
    (_ : ns.sum + ns.length * (al - 1) ≤ s.maxSize - s.allocSize),
    ∀ r ∈ (allocAll al s ns).1, r ≠ none
  | [], _, _, _ => by simp [allocAll]
  | n :: ns, s, h, hsum => by
    have hmax := h.lt
    have hle := h.le
    rw [List.sum_cons, List.length_cons, Nat.succ_mul] at hsum
    have hru := roundUp_lt (n := n) ha.pos
    have e := scratchAlloc_eq ha.dvd h (size := n) (by omega)
    rw [if_pos (by omega)] at e
    intro r hr
    simp only [allocAll, e] at hr
    rcases List.mem_cons.1 hr with rfl | hr
    · simp
    · exact allocAll_ok ha (ns := ns) (s := { s with allocSize := s.allocSize + roundUp al n })
        ⟨h.magic, by simp only; omega, h.lt⟩ (by simp only; omega) r hr

/-- `secp256k1_scratch_max_allocation` keeps its promise: if the result is positive, any `objects` or
fewer allocations whose sizes add up to at most the result all succeed. -/
theorem C54_max_allocation {al : ℕ} (ha : AlignOk al) {ns : List ℕ} {s : Scratch} (h : ScratchOk s)
    {objects : ℕ} (hlt : objects < szMod) (hl : ns.length ≤ objects)
    (hpos : 0 < (scratchMaxAllocation al s objects).1)
    (hsum : ns.sum ≤ (scratchMaxAllocation al s objects).1) :
    ∀ r ∈ (allocAll al s ns).1, r ≠ none := by
  rw [scratchMaxAllocation_eq ha.dvd h hlt] at hsum hpos
  simp only at hsum hpos
  have := Nat.mul_le_mul_right (al - 1) hl
  exact allocAll_ok ha h (by omega)

/-- Objects that were not made by `secp256k1_scratch_create` are refused by every function, with one
call of the error callback. -/
theorem C54_magic {al : ℕ} {s : Scratch} (h : s.magic ≠ scratchMagic) (size c k : ℕ)
    (hr : size ≤ roundToAlign al size) :
    scratchAlloc al s size = (none, s, 1) ∧ scratchApply s c = (s, 1) ∧ scratchCheckpoint s = (0, 1) ∧
      scratchMaxAllocation al s k = (0, 1) ∧ scratchDestroy s = (1, some s) := by
  have hb : scratchBad s = true := by unfold scratchBad; simpa using h
  refine ⟨?_, ?_, ?_, ?_, ?_⟩
  · unfold scratchAlloc; simp only; rw [if_neg (by omega), hb, if_pos rfl]
  · unfold scratchApply; rw [hb, if_pos rfl]
  · unfold scratchCheckpoint; rw [hb, if_pos rfl]
  · unfold scratchMaxAllocation; rw [hb, if_pos rfl]
  · unfold scratchDestroy; rw [hb, if_pos rfl]

/-- A program with nested checkpoints, a stale one and an allocation that does not fit, on every target. -/
example : ∀ word32 field26 : Bool, letI : Target := ⟨word32, field26⟩
    ((ScratchProg.start 16 100 (List.replicate 100 7)).run 16
    [.alloc 10, .checkpoint, .alloc 40, .store 0 39 5, .checkpoint, .alloc 60, .restore 0, .alloc 17,
      .restore 1, .alloc (szMod - 1), .alloc 0]).map (fun p => (p.live, p.s.allocSize)) =
    some ([(48, 0), (16, 17), (0, 10)], 48) := by
  decide +kernel

end Secp
