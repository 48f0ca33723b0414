import Verif.Proof.MusigSession

/-! # C35: MuSig nonce aggregation is the component-wise sum -/

namespace Secp
open Model Spec

seal keyObject beBytes keysHash compressed

theorem sumPubnoncesLoop_rep : ∀ (Rs : List (Pt × Pt)) (s0 s1 : Gej Fp) (A B : Pt),
    (∀ R ∈ Rs, R.1 ≠ 0 ∧ R.2 ≠ 0) → GejRep 7 s0 A → GejRep 7 s1 B →
    ∃ t0 t1, sumPubnoncesLoop (Rs.map fun R => pubnonceObject R.1 R.2) s0 s1 = some (t0, t1) ∧
      GejRep 7 t0 (A + (Rs.map Prod.fst).sum) ∧ GejRep 7 t1 (B + (Rs.map Prod.snd).sum)
  | [], s0, s1, A, B, _, h0, h1 => ⟨s0, s1, rfl, by simpa using h0, by simpa using h1⟩
  | R :: Rs, s0, s1, A, B, hR, h0, h1 => by
    obtain ⟨a, b, hl, ha, hb⟩ := pubnonceLoad_obj (hR R (by simp)).1 (hR R (by simp)).2
    obtain ⟨t0, t1, e, k0, k1⟩ := sumPubnoncesLoop_rep Rs _ _ _ _ (fun R' h => hR R' (by simp [h]))
      (gejAddGeVar_rep neg7_not_cube h0 ha) (gejAddGeVar_rep neg7_not_cube h1 hb)
    refine ⟨t0, t1, ?_, ?_, ?_⟩
    · rw [List.map_cons, sumPubnoncesLoop, hl]
      exact e
    · rw [List.map_cons, List.sum_cons, ← add_assoc]; exact k0
    · rw [List.map_cons, List.sum_cons, ← add_assoc]; exact k1

/-- For every non-empty list of public nonces, `secp256k1_musig_nonce_agg` returns 1 and stores the two
component-wise sums, either of which may be infinity. -/
theorem C35_nonce_agg {Rs : List (Pt × Pt)} (h0 : Rs ≠ []) (hR : ∀ R ∈ Rs, R.1 ≠ 0 ∧ R.2 ≠ 0)
    (old : Bytes) :
    musigNonceAgg (some old) (some (Rs.map fun R => pubnonceObject R.1 R.2)) =
      ⟨1, 0, some (aggnonceObject (Rs.map Prod.fst).sum (Rs.map Prod.snd).sum)⟩ := by
  obtain ⟨t0, t1, e, k0, k1⟩ := sumPubnoncesLoop_rep Rs gejInfinity gejInfinity 0 0 hR
    (gejInfinity_rep 7) (gejInfinity_rep 7)
  rw [zero_add] at k0 k1
  have hl : (Rs.map fun R => pubnonceObject R.1 R.2).length > 0 := by
    rw [List.length_map]; exact List.length_pos_iff.2 h0
  have hall := geSetAllGejVar_rep (.cons k0 (.cons k1 .nil))
  unfold musigNonceAgg sumPubnonces
  simp only
  rw [if_neg (fun h => h hl), e]
  simp only
  generalize geSetAllGejVar [t0, t1] = l at hall ⊢
  obtain ⟨a, l1, ha, hl1, rfl⟩ := List.forall₂_cons_right_iff.1 hall
  obtain ⟨b, l2, hb, -, rfl⟩ := List.forall₂_cons_right_iff.1 hl1
  simp only [List.getD_cons_zero, List.getD_cons_succ]
  rw [aggnonceSave_obj ha hb]

/-- The order of the public nonces does not matter. -/
theorem C35_order {Rs Rs' : List (Pt × Pt)} (h : Rs.Perm Rs') (h0 : Rs ≠ [])
    (hR : ∀ R ∈ Rs, R.1 ≠ 0 ∧ R.2 ≠ 0) (old old' : Bytes) :
    musigNonceAgg (some old) (some (Rs.map fun R => pubnonceObject R.1 R.2)) =
      musigNonceAgg (some old') (some (Rs'.map fun R => pubnonceObject R.1 R.2)) := by
  have h0' : Rs' ≠ [] := fun e => h0 (by rw [e] at h; exact h.eq_nil)
  have hR' : ∀ R ∈ Rs', R.1 ≠ 0 ∧ R.2 ≠ 0 := fun R hm => hR R (h.mem_iff.2 hm)
  rw [C35_nonce_agg h0 hR, C35_nonce_agg h0' hR', (h.map Prod.fst).sum_eq, (h.map Prod.snd).sum_eq]

theorem sumPubnoncesLoop_invalid : ∀ (objs : List Bytes) (s0 s1 : Gej Fp),
    (∃ o ∈ objs, o.take 4 ≠ [0xf5, 0x7a, 0x3d, 0xa0] ∧ 4 ≤ o.length) → sumPubnoncesLoop objs s0 s1 = none
  | [], _, _, h => by simp at h
  | o :: objs, s0, s1, h => by
    rw [sumPubnoncesLoop]
    cases hl : pubnonceLoad o with
    | none => rfl
    | some q =>
      obtain ⟨o', ho', hm, h4⟩ := h
      rcases List.mem_cons.1 ho' with rfl | ho'
      · unfold pubnonceLoad at hl
        rw [if_pos] at hl
        · cases hl
        · rw [Ne, memcmpVar_take (k := 4) h4 rfl]; exact hm
      · exact sumPubnoncesLoop_invalid objs _ _ ⟨o', ho', hm, h4⟩

/-- An empty list, or one that contains an object which is not a public nonce, is an illegal argument:
one callback, return value 0, the output is not touched. -/
theorem C35_illegal (old : Bytes) :
    musigNonceAgg (some old) (some []) = ⟨0, 1, some old⟩ ∧
    ∀ objs : List Bytes, (∃ o ∈ objs, o.take 4 ≠ [0xf5, 0x7a, 0x3d, 0xa0] ∧ 4 ≤ o.length) →
      musigNonceAgg (some old) (some objs) = ⟨0, 1, some old⟩ := by
  refine ⟨rfl, fun objs h => ?_⟩
  have hl : objs.length > 0 := by
    obtain ⟨o, ho, -⟩ := h
    exact List.length_pos_iff.2 (List.ne_nil_of_mem ho)
  unfold musigNonceAgg sumPubnonces
  simp only
  rw [if_neg (fun h => h hl), sumPubnoncesLoop_invalid objs _ _ h]
  rfl

/-- Two public nonces whose first components cancel: the sum is infinity in the first component. -/
example : [(G, G), (-G, G)] ≠ [] ∧ (∀ R ∈ [(G, G), (-G, G)], R.1 ≠ 0 ∧ R.2 ≠ 0) ∧
    (([(G, G), (-G, G)] : List (Pt × Pt)).map Prod.fst).sum = 0 := by
  refine ⟨by simp, by simp [G_ne_zero], by simp⟩

end Secp
