import Verif.Props.C03
import Verif.Proof.Hsort

/-! # C04: public key sorting returns a sorted permutation

The array elements are pointers of any type `α`; `deref` gives what they point to.  A result `none` of
`ecPubkeySort` would be an access outside the array; the recursion of the model is accepted by Lean
as terminating for every array. -/

namespace Secp
open Model Spec

theorem put_length {b c : Bytes} {k : ℕ} (h : k + c.length ≤ b.length) :
    (put b k c).length = b.length := by
  simp only [put, List.length_append, List.length_take, List.length_drop]
  omega

theorem serialize_length (e : Ge Fp) {pub : Bytes} (h : pub.length = 33) (size : ℕ) :
    (eckeyPubkeySerialize e pub size true).1.length = 33 := by
  unfold eckeyPubkeySerialize
  split
  · exact h
  · simp only [if_true]
    have h1 : (put pub 1 (feGetB32 (FeOps.normalize e.x))).length = 33 := by
      rw [put_length (by rw [h]; simp [feGetB32, Hash.beBytes_length]), h]
    rw [put_length (by rw [h1]; simp), h1]

/-- The bytes that are compared are always 33. -/
theorem cmpKey_length (k : Option Bytes) : (ecPubkeyCmpKey k).1.length = 33 := by
  have hc : (ecCompressed &&& flagsBitCompression ≠ 0) = True := by decide
  have hm : (ecCompressed &&& flagsTypeMask ≠ flagsTypeCompression) = False := by decide
  have hz : (put (zeros 33) 0 (zeros 33)).length = 33 := by decide
  have hzz : (zeros 33).length = 33 := by decide
  unfold ecPubkeyCmpKey
  have key : ∀ o : Out (Option Bytes × Option ℕ), (∀ b, o.val.1 = some b → b.length = 33) →
      o.val.1 ≠ none →
      (if o.ret = 0 then (zeros 33, o.illegal) else (o.val.1.getD [], o.illegal)).1.length = 33 := by
    intro o h hn
    split
    · exact hzz
    · cases ho : o.val.1 with
      | none => exact absurd ho hn
      | some b => exact h b ho
  cases k with
  | none => rfl
  | some b =>
    apply key
    · intro c hv
      simp only [ecPubkeySerialize, hc, hm, if_true, if_false, ge_iff_le, le_refl, not_true] at hv
      generalize zeros 33 = z at hz hv
      by_cases h1 : (pubkeyLoad b).2 = true
      · rw [if_pos h1] at hv
        have hl := serialize_length (pubkeyLoad b).1 hz 33
        by_cases h2 : (eckeyPubkeySerialize (pubkeyLoad b).1 (put z 0 z) 33 true).2.2 = true
        · rw [decide_true, if_pos h2] at hv
          rw [← Option.some.inj hv]; exact hl
        · rw [decide_true, if_neg h2] at hv
          rw [← Option.some.inj hv]; exact hl
      · rw [if_neg h1] at hv
        rw [← Option.some.inj hv]; exact hz
    · intro hv
      simp only [ecPubkeySerialize, hc, hm, if_true, if_false, ge_iff_le, le_refl, not_true] at hv
      generalize zeros 33 = z at hz hv
      by_cases h1 : (pubkeyLoad b).2 = true
      · rw [if_pos h1] at hv
        by_cases h2 : (eckeyPubkeySerialize (pubkeyLoad b).1 (put z 0 z) 33 true).2.2 = true
        · rw [decide_true, if_pos h2] at hv; cases hv
        · rw [decide_true, if_neg h2] at hv; cases hv
      · rw [if_neg h1] at hv; cases hv

/-- `secp256k1_ec_pubkey_cmp` decides a total preorder on all pointers, valid or not. -/
theorem sortCmp_orders {α : Type} (deref : α → Option Bytes) :
    Hsort.Orders (fun x y => (ecPubkeyCmp (deref x) (deref y)).ret ≤ 0) (ecPubkeySortCmp deref) := by
  have H := fun x y => memcmpVar_lt (cmpKey_length (deref x)) (cmpKey_length (deref y))
  have e : ∀ x y, (ecPubkeySortCmp deref x y).1 =
    memcmpVar (ecPubkeyCmpKey (deref x)).1 (ecPubkeyCmpKey (deref y)).1 33 := fun _ _ => rfl
  have e' : ∀ x y, (ecPubkeyCmp (deref x) (deref y)).ret =
    memcmpVar (ecPubkeyCmpKey (deref x)).1 (ecPubkeyCmpKey (deref y)).1 33 := fun _ _ => rfl
  have le_iff : ∀ x y, (ecPubkeyCmp (deref x) (deref y)).ret ≤ 0 ↔
      ¬ (ecPubkeyCmpKey (deref y)).1 < (ecPubkeyCmpKey (deref x)).1 := by
    intro x y
    rw [← (H x y).2.2, e']
    omega
  constructor
  · intro x y
    rw [le_iff, le_iff]
    by_contra h
    push Not at h
    exact List.lt_irrefl _ (List.lt_trans h.1 h.2)
  · intro x y z h1 h2
    rw [le_iff] at *
    rw [List.not_lt] at *
    exact List.le_trans h1 h2
  · intro x y
    rw [le_iff, e, ← (H x y).1]
    omega
  · intro x y
    rw [le_iff, e, not_not, (H x y).2.2]

/-- For every array of pointers, of any length and with any contents, sorting ends without reading or
writing outside the array and returns 1, and the array then is a permutation of the original pointers
in ascending order of `secp256k1_ec_pubkey_cmp`. -/
theorem C04_sort {α : Type} (deref : α → Option Bytes) (keys : List α) :
    ∃ sorted ill, ecPubkeySort deref (some keys) = some ⟨1, ill, some sorted⟩ ∧
      sorted.Perm keys ∧
      sorted.Pairwise (fun x y => (ecPubkeyCmp (deref x) (deref y)).ret ≤ 0) := by
  obtain ⟨a, ill, h1, h2, h3⟩ := Hsort.hsort_spec (sortCmp_orders deref) keys
  exact ⟨a, ill, by simp only [ecPubkeySort, h1], h2, h3⟩

/-- For valid keys the callback is never called and the compressed encodings are in lexicographic
order (`≤` on byte strings). -/
theorem C04_sort_valid {α : Type} (deref : α → Option Bytes) (keys : List α) (pt : α → Pt)
    (hv : ∀ k ∈ keys, pt k ≠ 0 ∧ deref k = some (keyObject (pt k))) :
    ∃ sorted, ecPubkeySort deref (some keys) = some ⟨1, 0, some sorted⟩ ∧
      sorted.Perm keys ∧
      sorted.Pairwise (fun x y => compressed (pt x) ≤ compressed (pt y)) := by
  obtain ⟨a, ill, h1, h2, h3⟩ := Hsort.hsort_spec (sortCmp_orders deref) keys
  have hz := Hsort.hsort_zero (fun x hx y hy => by
    show (ecPubkeyCmp (deref x) (deref y)).illegal = 0
    rw [(hv x hx).2, (hv y hy).2]
    exact (C03_cmp_lex (hv x hx).1 (hv y hy).1).2.2.2) h1
  refine ⟨a, by simp only [ecPubkeySort, h1, hz], h2, ?_⟩
  have hmem : ∀ x ∈ a, x ∈ keys := fun x hx => h2.subset hx
  refine List.Pairwise.imp_of_mem ?_ h3
  intro x y hx hy h
  rw [(hv x (hmem x hx)).2, (hv y (hmem y hy)).2] at h
  have := (C03_cmp_lex (hv x (hmem x hx)).1 (hv y (hmem y hy)).1).2.2.1
  rw [← List.not_lt, ← this]
  omega

/-- A NULL array is an illegal argument. -/
theorem C04_null {α : Type} (deref : α → Option Bytes) :
    ecPubkeySort deref none = some ⟨0, 1, none⟩ := rfl

/-- Three pointers, two of them to the same key: the hypotheses of `C04_sort_valid` hold, and the
order of the result is not that of the input. -/
example : ∃ (pt : Bool → Pt) (deref : Bool → Option Bytes),
    (∀ k ∈ [true, false, true], pt k ≠ 0 ∧ deref k = some (keyObject (pt k))) ∧
    ¬ [true, false, true].Pairwise (fun x y => compressed (pt x) ≤ compressed (pt y)) := by
  have hx : compressed G = 2 :: beBytes 32 gx := by decide +kernel
  have hy : ptY G % 2 = 0 := by decide +kernel
  have hn : ptY (-G) % 2 = 1 := by rw [ptY_neg G_ne_zero, hy]
  have hlt : compressed G < compressed (-G) := by
    rw [hx, compressed, if_pos hn, List.cons_lt_cons_iff]; left; decide
  let pt : Bool → Pt := fun b => if b then -G else G
  refine ⟨pt, fun b => some (keyObject (pt b)), ?_, ?_⟩
  · intro k _
    refine ⟨?_, rfl⟩
    cases k
    · exact G_ne_zero
    · exact neg_ne_zero.2 G_ne_zero
  · intro h
    have h1 : compressed (-G) ≤ compressed G := by
      have := (List.pairwise_cons.1 h).1 false (by simp)
      exact this
    exact (List.not_lt.2 h1) hlt

end Secp
