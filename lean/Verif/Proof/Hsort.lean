import Verif.Model.Hsort

/-! # Heap sort sorts -/

namespace Secp.Model.Hsort

variable {α : Type}

/-- What a comparison function must satisfy: it decides a total preorder. -/
structure Orders (le : α → α → Prop) (cmp : α → α → Int × Nat) : Prop where
  total : ∀ x y, le x y ∨ le y x
  trans : ∀ x y z, le x y → le y z → le x z
  ge : ∀ x y, 0 ≤ (cmp x y).1 ↔ le y x
  gt : ∀ x y, 0 < (cmp x y).1 ↔ ¬ le x y

theorem Orders.refl {le : α → α → Prop} {cmp} (h : Orders le cmp) (x : α) : le x x :=
  (h.total x x).elim id id

/-- `le` between the elements at two indices. -/
def LeAt (le : α → α → Prop) (a : List α) (i j : ℕ) : Prop :=
  ∀ x y, a[i]? = some x → a[j]? = some y → le x y

/-- `c` is a child of `j` in a heap of `hs` elements. -/
def Child (hs j c : ℕ) : Prop := (c = 2 * j + 1 ∨ c = 2 * j + 2) ∧ c < hs

def HeapFrom (le : α → α → Prop) (a : List α) (lo hs : ℕ) : Prop :=
  ∀ j c, lo ≤ j → Child hs j c → LeAt le a c j

/-- The invariant of `heapDown`. -/
structure Sift (le : α → α → Prop) (a : List α) (lo i hs : ℕ) : Prop where
  others : ∀ j c, lo ≤ j → j ≠ i → Child hs j c → LeAt le a c j
  parent : ∀ j c, lo ≤ j → Child hs j i → Child hs i c → LeAt le a c j

/-- `a'` is a rearrangement of the first `hs` elements of `a`. -/
structure Rearr (hs : ℕ) (a a' : List α) : Prop where
  perm : a'.Perm a
  low : ∀ k < hs, ∃ k' < hs, a'[k]? = a[k']?
  high : ∀ k, hs ≤ k → a'[k]? = a[k]?

theorem Rearr.refl (hs : ℕ) (a : List α) : Rearr hs a a :=
  ⟨List.Perm.refl _, fun k hk => ⟨k, hk, rfl⟩, fun _ _ => rfl⟩

theorem Rearr.trans {hs : ℕ} {a b c : List α} (h : Rearr hs a b) (h' : Rearr hs b c) :
    Rearr hs a c := by
  refine ⟨h'.perm.trans h.perm, fun k hk => ?_, fun k hk => (h'.high k hk).trans (h.high k hk)⟩
  obtain ⟨k1, hk1, e1⟩ := h'.low k hk
  obtain ⟨k2, hk2, e2⟩ := h.low k1 hk1
  exact ⟨k2, hk2, e1.trans e2⟩

theorem Rearr.length {hs : ℕ} {a b : List α} (h : Rearr hs a b) : b.length = a.length :=
  h.perm.length_eq

theorem heapSwap_eq {a : List α} {i j : ℕ} (hi : i < a.length) (hj : j < a.length) :
    heapSwap a i j = some ((a.set i a[j]).set j a[i]) := by
  simp only [heapSwap, List.getElem?_eq_getElem hi, List.getElem?_eq_getElem hj]

theorem swap_get {a : List α} {i j : ℕ} (hi : i < a.length) (hj : j < a.length) (hij : i ≠ j)
    (k : ℕ) : ((a.set i a[j]).set j a[i])[k]? =
      if k = i then a[j]? else if k = j then a[i]? else a[k]? := by
  rw [List.getElem?_set, List.getElem?_set]
  by_cases h1 : k = i
  · subst h1
    rw [if_neg (Ne.symm hij), if_pos rfl, if_pos rfl, if_pos hi, List.getElem?_eq_getElem hj]
  · by_cases h2 : k = j
    · subst h2
      rw [if_pos rfl, if_neg h1, if_pos rfl, if_pos (by simpa using hj), List.getElem?_eq_getElem hi]
    · rw [if_neg (Ne.symm h2), if_neg (Ne.symm h1), if_neg h1, if_neg h2]

theorem swap_rearr {a : List α} {i j hs : ℕ} (hi : i < a.length) (hj : j < a.length) (hij : i ≠ j)
    (hih : i < hs) (hjh : j < hs) : Rearr hs a ((a.set i a[j]).set j a[i]) := by
  refine ⟨List.set_set_perm hi hj, fun k hk => ?_, fun k hk => ?_⟩
  · rw [swap_get hi hj hij]
    by_cases h1 : k = i
    · exact ⟨j, hjh, by rw [if_pos h1]⟩
    · by_cases h2 : k = j
      · exact ⟨i, hih, by rw [if_neg h1, if_pos h2]⟩
      · exact ⟨k, hk, by rw [if_neg h1, if_neg h2]⟩
  · rw [swap_get hi hj hij, if_neg (by omega), if_neg (by omega)]

/-- What one round finds. -/
theorem heapStep_spec {le : α → α → Prop} {cmp : α → α → Int × Nat} (ho : Orders le cmp) {a : List α}
    {i hs : ℕ} (hl : hs ≤ a.length) (hi : i < hs / 2) :
    ∃ r e, heapStep cmp a i hs = some (r, e) ∧
      ((r = none ∧ ∀ c, Child hs i c → LeAt le a c i) ∨
       ∃ c, r = some c ∧ Child hs i c ∧ LeAt le a i c ∧ ∀ c', Child hs i c' → LeAt le a c' c) := by
  have l0 : i < a.length := by omega
  have l1 : 2 * i + 1 < a.length := by omega
  have g0 := List.getElem?_eq_getElem l0
  have g1 := List.getElem?_eq_getElem l1
  simp only [heapStep]
  have leAt : ∀ {p q : ℕ} (hp : p < a.length) (hq : q < a.length), le a[p] a[q] → LeAt le a p q := by
    intro p q hp hq h x y hx hy
    rw [List.getElem?_eq_getElem hp] at hx
    rw [List.getElem?_eq_getElem hq] at hy
    rw [← Option.some.inj hx, ← Option.some.inj hy]
    exact h
  by_cases h2 : 2 * i + 1 + 1 < hs
  · have l2 : 2 * i + 1 + 1 < a.length := by omega
    have g2 := List.getElem?_eq_getElem l2
    rw [if_pos h2]
    simp only [cmpAt, g0, g1, g2]
    by_cases h3 : 0 ≤ (cmp a[2 * i + 1 + 1] a[2 * i + 1]).1
    · rw [if_pos h3]
      have h3' := (ho.ge _ _).1 h3
      refine ⟨_, _, rfl, ?_⟩
      by_cases h4 : 0 < (cmp a[2 * i + 1 + 1] a[i]).1
      · rw [if_pos h4]
        have h4' := (ho.gt _ _).1 h4
        right
        refine ⟨_, rfl, ⟨Or.inr rfl, h2⟩, leAt l0 l2 ((ho.total _ _).resolve_right h4'), ?_⟩
        rintro c' ⟨rfl | rfl, hc⟩
        · exact leAt l1 l2 h3'
        · exact leAt l2 l2 (ho.refl _)
      · rw [if_neg h4]
        have h4' : le a[2 * i + 1 + 1] a[i] := by
          by_contra hn; exact h4 ((ho.gt _ _).2 hn)
        left
        refine ⟨rfl, ?_⟩
        rintro c' ⟨rfl | rfl, hc⟩
        · exact leAt l1 l0 (ho.trans _ _ _ h3' h4')
        · exact leAt l2 l0 h4'
    · rw [if_neg h3]
      have h3' : le a[2 * i + 1 + 1] a[2 * i + 1] :=
        (ho.total _ _).resolve_right (fun h => h3 ((ho.ge _ _).2 h))
      refine ⟨_, _, rfl, ?_⟩
      by_cases h4 : 0 < (cmp a[2 * i + 1] a[i]).1
      · rw [if_pos h4]
        have h4' := (ho.gt _ _).1 h4
        right
        refine ⟨_, rfl, ⟨Or.inl rfl, by omega⟩, leAt l0 l1 ((ho.total _ _).resolve_right h4'), ?_⟩
        rintro c' ⟨rfl | rfl, hc⟩
        · exact leAt l1 l1 (ho.refl _)
        · exact leAt l2 l1 h3'
      · rw [if_neg h4]
        have h4' : le a[2 * i + 1] a[i] := by
          by_contra hn; exact h4 ((ho.gt _ _).2 hn)
        left
        refine ⟨rfl, ?_⟩
        rintro c' ⟨rfl | rfl, hc⟩
        · exact leAt l1 l0 h4'
        · exact leAt l2 l0 (ho.trans _ _ _ h3' h4')
  · rw [if_neg h2]
    simp only [cmpAt, g0, g1]
    refine ⟨_, _, rfl, ?_⟩
    by_cases h4 : 0 < (cmp a[2 * i + 1] a[i]).1
    · rw [if_pos h4]
      have h4' := (ho.gt _ _).1 h4
      right
      refine ⟨_, rfl, ⟨Or.inl rfl, by omega⟩, leAt l0 l1 ((ho.total _ _).resolve_right h4'), ?_⟩
      rintro c' ⟨rfl | rfl, hc⟩
      · exact leAt l1 l1 (ho.refl _)
      · omega
    · rw [if_neg h4]
      have h4' : le a[2 * i + 1] a[i] := by
        by_contra hn; exact h4 ((ho.gt _ _).2 hn)
      left
      refine ⟨rfl, ?_⟩
      rintro c' ⟨rfl | rfl, hc⟩
      · exact leAt l1 l0 h4'
      · omega

theorem sift_swap {le : α → α → Prop} {cmp : α → α → Int × Nat} (ho : Orders le cmp) {a : List α}
    {lo i hs c : ℕ} (hl : hs ≤ a.length) (hlo : lo ≤ i) (hs' : Sift le a lo i hs)
    (hc : Child hs i c) (h1 : LeAt le a i c) (h2 : ∀ c', Child hs i c' → LeAt le a c' c)
    (li : i < a.length) (lc : c < a.length) :
    Sift le ((a.set i a[c]).set c a[i]) lo c hs := by
  have hic : i < c := by obtain ⟨h | h, -⟩ := hc <;> omega
  have G := swap_get li lc (Nat.ne_of_lt hic)
  constructor
  · -- nodes other than c
    intro j d hj hjc hd x y hx hy
    have hjd : j < d := by obtain ⟨h | h, -⟩ := hd <;> omega
    rw [G] at hx hy
    by_cases hji : j = i
    · subst hji
      rw [if_pos rfl] at hy
      rw [if_neg (by omega)] at hx
      by_cases hdc : d = c
      · rw [if_pos hdc] at hx
        exact h1 x y hx hy
      · rw [if_neg hdc] at hx
        exact h2 d hd x y hx hy
    · rw [if_neg hji, if_neg hjc] at hy
      by_cases hdi : d = i
      · rw [if_pos hdi] at hx
        rw [hdi] at hd
        exact hs'.parent j c hj hd hc x y hx hy
      · by_cases hdc : d = c
        · exfalso
          subst hdc
          obtain ⟨h | h, -⟩ := hd <;> obtain ⟨h' | h', -⟩ := hc <;> omega
        · rw [if_neg hdi, if_neg hdc] at hx
          exact hs'.others j d hj hji hd x y hx hy
  · -- the parent of c is i
    intro j d hj hjc hd x y hx hy
    have : j = i := by obtain ⟨h | h, -⟩ := hjc <;> obtain ⟨h' | h', -⟩ := hc <;> omega
    subst this
    have hcd : c < d := by obtain ⟨h | h, -⟩ := hd <;> omega
    rw [G] at hx hy
    rw [if_pos rfl] at hy
    rw [if_neg (by omega), if_neg (by omega)] at hx
    exact hs'.others c d (by omega) (by omega) hd x y hx hy

theorem heapDown_spec {le : α → α → Prop} {cmp : α → α → Int × Nat} (ho : Orders le cmp) (lo hs : ℕ)
    (i : ℕ) (a : List α) (ill : ℕ) (hl : hs ≤ a.length) (hlo : lo ≤ i) (hsift : Sift le a lo i hs) :
    ∃ a' ill', heapDown cmp hs i a ill = some (a', ill') ∧ HeapFrom le a' lo hs ∧ Rearr hs a a' := by
  rw [heapDown]
  by_cases hi : i < hs / 2
  · rw [dif_pos hi]
    obtain ⟨r, e, hst, hr⟩ := heapStep_spec ho hl hi
    rcases hr with ⟨rfl, hr⟩ | ⟨c, rfl, hc, h1, h2⟩
    · refine ⟨a, ill + e, ?_, ?_, Rearr.refl _ _⟩
      · split
        · rename_i h; rw [hst] at h; cases h
        · rename_i e' h; rw [hst] at h; cases h; rfl
        · rename_i c' e' h; rw [hst] at h; cases h
      · intro j d hj hd
        by_cases hji : j = i
        · subst hji; exact hr d hd
        · exact hsift.others j d hj hji hd
    · have li : i < a.length := by omega
      have lc : c < a.length := lt_of_lt_of_le hc.2 hl
      have hic : i < c := by obtain ⟨h | h, -⟩ := hc <;> omega
      have hsw := sift_swap ho hl hlo hsift hc h1 h2 li lc
      have hre := swap_rearr li lc (Nat.ne_of_lt hic) (show i < hs by omega) hc.2
      obtain ⟨a', ill', e1, e2, e3⟩ := heapDown_spec ho lo hs c _ (ill + e)
        (by rw [hre.length]; exact hl) (by omega) hsw
      refine ⟨a', ill', ?_, e2, hre.trans e3⟩
      split
      · rename_i h; rw [hst] at h; cases h
      · rename_i e' h; rw [hst] at h; cases h
      · rename_i c' e' h
        rw [hst] at h
        cases h
        rw [heapSwap_eq li lc]
        exact e1
  · rw [dif_neg hi]
    refine ⟨a, ill, rfl, ?_, Rearr.refl _ _⟩
    intro j d hj hd
    by_cases hji : j = i
    · subst hji
      obtain ⟨h | h, h'⟩ := hd <;> omega
    · exact hsift.others j d hj hji hd
termination_by hs - i
decreasing_by omega

theorem buildHeap_spec {le : α → α → Prop} {cmp : α → α → Int × Nat} (ho : Orders le cmp) (count : ℕ) :
    ∀ (i : ℕ) (a : List α) (ill : ℕ), a.length = count → HeapFrom le a i count →
    ∃ a' ill', buildHeap cmp count i a ill = some (a', ill') ∧ HeapFrom le a' 0 count ∧ a'.Perm a
  | 0, a, ill, _, h => ⟨a, ill, rfl, h, List.Perm.refl _⟩
  | i + 1, a, ill, hl, h => by
    obtain ⟨a', ill', e1, e2, e3⟩ := heapDown_spec ho i count i a ill (by omega) (le_refl _)
      ⟨fun j c hj hji hc => h j c (by omega) hc, fun j c hj hjc hc => by
        exfalso
        obtain ⟨h | h, -⟩ := hjc <;> omega⟩
    obtain ⟨a'', ill'', f1, f2, f3⟩ := buildHeap_spec ho count i a' ill' (by rw [e3.length, hl]) e2
    exact ⟨a'', ill'', by rw [buildHeap, e1]; exact f1, f2, f3.trans e3.perm⟩

/-- The root of a heap is its maximum. -/
theorem heap_root {le : α → α → Prop} {cmp : α → α → Int × Nat} (ho : Orders le cmp) {a : List α}
    {hs : ℕ} (hl : hs ≤ a.length) (h : HeapFrom le a 0 hs) (k : ℕ) (hk : k < hs) : LeAt le a k 0 := by
  induction k using Nat.strong_induction_on with
  | _ k ih =>
    intro x y hx hy
    rcases Nat.eq_zero_or_pos k with rfl | hpos
    · rw [hx] at hy
      rw [Option.some.inj hy]
      exact ho.refl _
    · have hp : (k - 1) / 2 < k := by omega
      have lp : (k - 1) / 2 < a.length := by omega
      have g := List.getElem?_eq_getElem lp
      exact ho.trans _ _ _ (h ((k - 1) / 2) k (Nat.zero_le _) ⟨by omega, hk⟩ _ _ hx g)
        (ih _ hp (by omega) _ _ g hy)

theorem extract_spec {le : α → α → Prop} {cmp : α → α → Int × Nat} (ho : Orders le cmp) :
    ∀ (i : ℕ) (a : List α) (ill : ℕ), i ≤ a.length → HeapFrom le a 0 i →
    (∀ k m, k < m → i ≤ m → LeAt le a k m) →
    ∃ a' ill', extract cmp i a ill = some (a', ill') ∧ (∀ k m, k < m → LeAt le a' k m) ∧ a'.Perm a
  | 0, a, ill, _, _, h => ⟨a, ill, rfl, fun k m hkm => h k m hkm (Nat.zero_le _), List.Perm.refl _⟩
  | i + 1, a, ill, hl, hh, h => by
    rw [extract]
    by_cases hi : 1 < i + 1
    · rw [if_pos hi]
      have l0 : 0 < a.length := by omega
      have li : i < a.length := by omega
      have h0i : (0 : ℕ) ≠ i := by omega
      rw [heapSwap_eq l0 li]
      simp only
      have G := swap_get l0 li h0i
      have R := swap_rearr (hs := i + 1) l0 li h0i (by omega) (by omega)
      have hroot := heap_root ho (by omega) hh
      set b := (a.set 0 a[i]).set i a[0] with hb
      have hbl : b.length = a.length := R.length
      obtain ⟨a', ill', e1, e2, e3⟩ := heapDown_spec ho 0 i 0 b ill (by omega) (le_refl _)
        ⟨fun j c hj hji hc x y hx hy => by
          have hjc : j < c := by obtain ⟨h | h, -⟩ := hc <;> omega
          have hci := hc.2
          rw [G] at hx hy
          rw [if_neg (by omega), if_neg (by omega)] at hx
          rw [if_neg hji, if_neg (by omega)] at hy
          exact hh j c (Nat.zero_le _) ⟨hc.1, by omega⟩ x y hx hy,
         fun j c hj hjc hc => by
          exfalso
          obtain ⟨h | h, -⟩ := hjc <;> omega⟩
      rw [e1]
      simp only
      have hsorted : ∀ k m, k < m → i ≤ m → LeAt le b k m := by
        intro k m hkm him x y hx hy
        rcases Nat.eq_or_lt_of_le him with rfl | him'
        · rw [G, if_neg (by omega), if_pos rfl] at hy
          rw [G] at hx
          by_cases hk0 : k = 0
          · rw [if_pos hk0] at hx
            exact hroot i (by omega) x y hx hy
          · rw [if_neg hk0, if_neg (by omega)] at hx
            exact hroot k (by omega) x y hx hy
        · rw [R.high m (by omega)] at hy
          by_cases hki : k < i + 1
          · obtain ⟨k', hk', e⟩ := R.low k hki
            rw [e] at hx
            exact h k' m (by omega) (by omega) x y hx hy
          · rw [R.high k (by omega)] at hx
            exact h k m hkm (by omega) x y hx hy
      obtain ⟨a'', ill'', f1, f2, f3⟩ := extract_spec ho i a' ill'
        (by rw [e3.length, hbl]; omega) e2 (fun k m hkm him x y hx hy => by
          rw [e3.high m him] at hy
          by_cases hki : k < i
          · obtain ⟨k', hk', e⟩ := e3.low k hki
            rw [e] at hx
            exact hsorted k' m (by omega) him x y hx hy
          · rw [e3.high k (by omega)] at hx
            exact hsorted k m hkm him x y hx hy)
      exact ⟨a'', ill'', f1, f2, f3.trans (e3.perm.trans R.perm)⟩
    · rw [if_neg hi]
      have hi0 : i = 0 := by omega
      subst hi0
      exact ⟨a, ill, rfl, fun k m hkm => h k m hkm (by omega), List.Perm.refl _⟩

/-- Heap sort with a comparison that decides a total preorder gives a sorted permutation. -/
theorem hsort_spec {le : α → α → Prop} {cmp : α → α → Int × Nat} (ho : Orders le cmp) (a : List α) :
    ∃ a' ill, hsort cmp a = some (a', ill) ∧ a'.Perm a ∧ a'.Pairwise le := by
  obtain ⟨b, ill, e1, e2, e3⟩ := buildHeap_spec ho a.length (a.length / 2) a 0 rfl
    (fun j c hj hc => by exfalso; obtain ⟨h | h, h'⟩ := hc <;> omega)
  obtain ⟨a', ill', f1, f2, f3⟩ := extract_spec ho a.length b ill (by rw [e3.length_eq]) e2
    (fun k m hkm him x y hx hy => by
      rw [List.getElem?_eq_none (by rw [e3.length_eq]; exact him)] at hy
      cases hy)
  refine ⟨a', ill', ?_, f3.trans e3, ?_⟩
  · rw [hsort, e1]; exact f1
  · rw [List.pairwise_iff_getElem]
    intro k m hk hm hkm
    exact f2 k m hkm _ _ (List.getElem?_eq_getElem hk) (List.getElem?_eq_getElem hm)

/-! ### Callback calls -/

theorem heapStep_zero {cmp : α → α → Int × Nat} {a : List α} (h0 : ∀ x ∈ a, ∀ y ∈ a, (cmp x y).2 = 0)
    {i hs : ℕ} {r e} (h : heapStep cmp a i hs = some (r, e)) : e = 0 := by
  have key : ∀ {i j r e}, cmpAt cmp a i j = some (r, e) → e = 0 := by
    intro i j r e h
    unfold cmpAt at h
    split at h
    · rename_i x y hx hy
      have : (cmp x y).2 = e := congrArg Prod.snd (Option.some.inj h)
      rw [← this]
      exact h0 _ (List.mem_of_getElem? hx) _ (List.mem_of_getElem? hy)
    · cases h
  simp only [heapStep] at h
  split at h
  · cases h1 : cmpAt cmp a (2 * i + 1 + 1) (2 * i + 1) with
    | none => rw [h1] at h; cases h
    | some p =>
      obtain ⟨r1, e1⟩ := p
      rw [h1] at h
      simp only at h
      split at h
      · cases h2 : cmpAt cmp a (2 * i + 1 + 1) i with
        | none => rw [h2] at h; cases h
        | some p =>
          obtain ⟨r2, e2⟩ := p
          rw [h2] at h
          have := congrArg Prod.snd (Option.some.inj h)
          simp only at this
          rw [← this, key h1, key h2]
      · cases h2 : cmpAt cmp a (2 * i + 1) i with
        | none => rw [h2] at h; cases h
        | some p =>
          obtain ⟨r2, e2⟩ := p
          rw [h2] at h
          have := congrArg Prod.snd (Option.some.inj h)
          simp only at this
          rw [← this, key h1, key h2]
  · cases h2 : cmpAt cmp a (2 * i + 1) i with
    | none => rw [h2] at h; cases h
    | some p =>
      obtain ⟨r2, e2⟩ := p
      rw [h2] at h
      have := congrArg Prod.snd (Option.some.inj h)
      simp only at this
      rw [← this, key h2]

theorem heapSwap_mem {a b : List α} {i j : ℕ} (h : heapSwap a i j = some b) : ∀ x ∈ b, x ∈ a := by
  unfold heapSwap at h
  split at h
  · rename_i x y hx hy
    intro z hz
    rw [← Option.some.inj h] at hz
    rcases List.mem_or_eq_of_mem_set hz with hz | rfl
    · rcases List.mem_or_eq_of_mem_set hz with hz | rfl
      · exact hz
      · exact List.mem_of_getElem? hy
    · exact List.mem_of_getElem? hx
  · cases h

theorem heapDown_zero {cmp : α → α → Int × Nat} (hs i : ℕ) (a : List α) (ill : ℕ) {b : List α}
    {ill' : ℕ} (h0 : ∀ x ∈ a, ∀ y ∈ a, (cmp x y).2 = 0)
    (h : heapDown cmp hs i a ill = some (b, ill')) : ill' = ill ∧ ∀ x ∈ b, x ∈ a := by
  rw [heapDown] at h
  by_cases hi : i < hs / 2
  · rw [dif_pos hi] at h
    split at h
    · cases h
    · rename_i e hst
      rw [heapStep_zero h0 hst] at h
      cases h
      exact ⟨rfl, fun x hx => hx⟩
    · rename_i c e hst
      rw [heapStep_zero h0 hst] at h
      have := heapStep_gt hst
      cases hsw : heapSwap a i c with
      | none => rw [hsw] at h; cases h
      | some a1 =>
        rw [hsw] at h
        have hm := heapSwap_mem hsw
        obtain ⟨q1, q2⟩ := heapDown_zero hs c a1 (ill + 0)
          (fun x hx y hy => h0 x (hm x hx) y (hm y hy)) h
        exact ⟨q1, fun x hx => hm x (q2 x hx)⟩
  · rw [dif_neg hi] at h
    cases h
    exact ⟨rfl, fun x hx => hx⟩
termination_by hs - i
decreasing_by omega

theorem buildHeap_zero {cmp : α → α → Int × Nat} (count : ℕ) : ∀ (i : ℕ) (a : List α) (ill : ℕ)
    {b : List α} {ill' : ℕ}, (∀ x ∈ a, ∀ y ∈ a, (cmp x y).2 = 0) →
    buildHeap cmp count i a ill = some (b, ill') → ill' = ill ∧ ∀ x ∈ b, x ∈ a
  | 0, a, ill, b, ill', _, h => by
    rw [buildHeap] at h; cases h; exact ⟨rfl, fun x hx => hx⟩
  | i + 1, a, ill, b, ill', h0, h => by
    rw [buildHeap] at h
    cases hd : heapDown cmp count i a ill with
    | none => rw [hd] at h; cases h
    | some p =>
      obtain ⟨a1, i1⟩ := p
      rw [hd] at h
      obtain ⟨q1, q2⟩ := heapDown_zero _ _ _ _ h0 hd
      obtain ⟨q3, q4⟩ := buildHeap_zero count i a1 i1
        (fun x hx y hy => h0 x (q2 x hx) y (q2 y hy)) h
      exact ⟨q3.trans q1, fun x hx => q2 x (q4 x hx)⟩

theorem extract_zero {cmp : α → α → Int × Nat} : ∀ (i : ℕ) (a : List α) (ill : ℕ)
    {b : List α} {ill' : ℕ}, (∀ x ∈ a, ∀ y ∈ a, (cmp x y).2 = 0) →
    extract cmp i a ill = some (b, ill') → ill' = ill
  | 0, a, ill, b, ill', _, h => by
    rw [extract] at h; cases h; rfl
  | i + 1, a, ill, b, ill', h0, h => by
    rw [extract] at h
    split at h
    · cases hsw : heapSwap a 0 i with
      | none => rw [hsw] at h; cases h
      | some a1 =>
        rw [hsw] at h
        simp only at h
        have hm := heapSwap_mem hsw
        have h1 : ∀ x ∈ a1, ∀ y ∈ a1, (cmp x y).2 = 0 := fun x hx y hy => h0 x (hm x hx) y (hm y hy)
        cases hd : heapDown cmp i 0 a1 ill with
        | none => rw [hd] at h; cases h
        | some p =>
          obtain ⟨a2, i2⟩ := p
          rw [hd] at h
          obtain ⟨q1, q2⟩ := heapDown_zero _ _ _ _ h1 hd
          rw [extract_zero i a2 i2 (fun x hx y hy => h1 x (q2 x hx) y (q2 y hy)) h, q1]
    · cases h; rfl

/-- Comparisons that never call the callback make sorting never call it. -/
theorem hsort_zero {cmp : α → α → Int × Nat} {a b : List α} {ill : ℕ}
    (h0 : ∀ x ∈ a, ∀ y ∈ a, (cmp x y).2 = 0) (h : hsort cmp a = some (b, ill)) : ill = 0 := by
  unfold hsort at h
  cases hd : buildHeap cmp a.length (a.length / 2) a 0 with
  | none => rw [hd] at h; cases h
  | some p =>
    obtain ⟨a1, i1⟩ := p
    rw [hd] at h
    obtain ⟨q1, q2⟩ := buildHeap_zero _ _ _ _ h0 hd
    rw [extract_zero _ _ _ (fun x hx y hy => h0 x (q2 x hx) y (q2 y hy)) h, q1]

end Secp.Model.Hsort
