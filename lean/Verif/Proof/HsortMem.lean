import Verif.Model.HsortMem
import Verif.Proof.Hsort

/-! # Heap sort on bytes does what heap sort on elements does -/

namespace Secp.Model.HsortMem

/-- The bytes of the object are the elements `a`, of `s` bytes each. -/
structure Holds (s : ℕ) (m : List UInt8) (a : List (List UInt8)) : Prop where
  flat : m = a.flatten
  each : ∀ x ∈ a, x.length = s

theorem flatten_length {s : ℕ} : ∀ {a : List (List UInt8)}, (∀ x ∈ a, x.length = s) →
    a.flatten.length = a.length * s
  | [], _ => by simp
  | x :: a, h => by
    rw [List.flatten_cons, List.length_append, flatten_length fun y hy => h y (List.mem_cons_of_mem _ hy),
      h x (by simp), List.length_cons]
    ring

theorem Holds.length {s : ℕ} {m : List UInt8} {a : List (List UInt8)} (h : Holds s m a) :
    m.length = a.length * s := by rw [h.flat, flatten_length h.each]

theorem flatten_get {s : ℕ} : ∀ {a : List (List UInt8)}, (∀ x ∈ a, x.length = s) → ∀ {i o : ℕ}, o < s →
    a.flatten[i * s + o]? = (a[i]?).bind (·[o]?)
  | [], _, i, o, _ => by simp
  | x :: a, h, 0, o, ho => by
    have hx := h x (by simp)
    rw [List.flatten_cons, List.getElem?_append_left (by omega)]
    simp
  | x :: a, h, i + 1, o, ho => by
    have hx := h x (by simp)
    rw [List.flatten_cons, List.getElem?_append_right (by rw [hx, Nat.succ_mul]; omega), hx,
      show (i + 1) * s + o - s = i * s + o by rw [Nat.succ_mul]; omega,
      flatten_get (fun y hy => h y (List.mem_cons_of_mem _ hy)) ho]
    simp

theorem Holds.get {s : ℕ} {m : List UInt8} {a : List (List UInt8)} (h : Holds s m a) {i o : ℕ} (ho : o < s) :
    m[i * s + o]? = (a[i]?).bind (·[o]?) := by rw [h.flat, flatten_get h.each ho]

/-- An object is determined by its bytes, element by element. -/
theorem Holds.of_get {s : ℕ} {m : List UInt8} {a : List (List UInt8)} (he : ∀ x ∈ a, x.length = s)
    (hl : m.length = a.length * s)
    (hg : ∀ i o, i < a.length → o < s → m[i * s + o]? = (a[i]?).bind (·[o]?)) : Holds s m a := by
  refine ⟨List.ext_getElem? fun k => ?_, he⟩
  by_cases hk : k < a.length * s
  · have hs : 0 < s := Nat.pos_of_ne_zero fun e => by rw [e] at hk; omega
    have hi : k / s < a.length := Nat.div_lt_of_lt_mul (by rwa [Nat.mul_comm])
    have e : k = k / s * s + k % s := (Nat.div_add_mod' k s).symm
    rw [e, hg _ _ hi (Nat.mod_lt _ hs), flatten_get he (Nat.mod_lt _ hs)]
  · rw [List.getElem?_eq_none (by omega), List.getElem?_eq_none (by rw [flatten_length he]; omega)]

theorem load_get (m : List UInt8) (off len t : ℕ) :
    (load m off len)[t]? = if t < len then m[off + t]? else none := by
  rw [load, List.getElem?_take, List.getElem?_drop]

theorem load_length {m : List UInt8} {off len : ℕ} (h : off + len ≤ m.length) :
    (load m off len).length = len := by
  rw [load, List.length_take, List.length_drop]; omega

theorem store_length {m d : List UInt8} {off : ℕ} (h : off + d.length ≤ m.length) :
    (store m off d).length = m.length := by
  simp only [store, List.length_append, List.length_take, List.length_drop]; omega

theorem store_get {m d : List UInt8} {off : ℕ} (h : off + d.length ≤ m.length) (k : ℕ) :
    (store m off d)[k]? = if off ≤ k ∧ k < off + d.length then d[k - off]? else m[k]? := by
  have ht : (m.take off).length = off := by rw [List.length_take]; omega
  rw [store]
  by_cases h1 : k < off
  · rw [List.append_assoc, List.getElem?_append_left (by omega), List.getElem?_take, if_pos h1,
      if_neg (by omega)]
  · by_cases h2 : k < off + d.length
    · rw [List.getElem?_append_left (by rw [List.length_append]; omega),
        List.getElem?_append_right (by omega), ht, if_pos ⟨by omega, h2⟩]
    · rw [List.getElem?_append_right (by rw [List.length_append]; omega), List.length_append, ht,
        List.getElem?_drop, if_neg (by omega)]
      congr 1; omega

/-- Two ranges that share no byte are exchanged, and nothing else changes. -/
theorem swap64_get {m : List UInt8} {a b len : ℕ} (hlen : len ≤ 64) (ha : a + len ≤ m.length)
    (hb : b + len ≤ m.length) (hd : a + len ≤ b ∨ b + len ≤ a) :
    ∃ m', heapSwap64 m a b len = some m' ∧ m'.length = m.length ∧
      ∀ k, m'[k]? = if a ≤ k ∧ k < a + len then m[b + (k - a)]?
        else if b ≤ k ∧ k < b + len then m[a + (k - b)]? else m[k]? := by
  have la := load_length ha
  have lb := load_length hb
  have h1 : (store m a (load m b len)).length = m.length := store_length (by rw [lb]; exact ha)
  refine ⟨store (store m a (load m b len)) b (load m a len), ?_, ?_, fun k => ?_⟩
  · rw [heapSwap64, if_pos ⟨hlen, ha, hb⟩]
  · rw [store_length (by rw [la, h1]; exact hb), h1]
  · rw [store_get (by rw [la, h1]; exact hb), la, store_get (by rw [lb]; exact ha), lb, load_get, load_get]
    by_cases hka : a ≤ k ∧ k < a + len
    · rw [if_neg (by omega), if_pos hka, if_pos hka, if_pos (by omega)]
    · rw [if_neg hka, if_neg hka]
      by_cases hkb : b ≤ k ∧ k < b + len
      · rw [if_pos hkb, if_pos hkb, if_pos (by omega)]
      · rw [if_neg hkb, if_neg hkb]

theorem swapLoop_get (len : ℕ) : ∀ {m : List UInt8} {a b : ℕ}, a + len ≤ m.length → b + len ≤ m.length →
    (a + len ≤ b ∨ b + len ≤ a) →
    ∃ m', heapSwapLoop m a b len = some m' ∧ m'.length = m.length ∧
      ∀ k, m'[k]? = if a ≤ k ∧ k < a + len then m[b + (k - a)]?
        else if b ≤ k ∧ k < b + len then m[a + (k - b)]? else m[k]? := by
  induction len using Nat.strong_induction_on with
  | _ len ih =>
    intro m a b ha hb hd
    by_cases h64 : 64 < len
    · obtain ⟨m1, e1, l1, g1⟩ := swap64_get (m := m) (a := a + (len - 64)) (b := b + (len - 64)) (len := 64)
        le_rfl (by omega) (by omega) (by omega)
      obtain ⟨m2, e2, l2, g2⟩ := ih (len - 64) (by omega) (show a + (len - 64) ≤ m1.length by omega)
        (show b + (len - 64) ≤ m1.length by omega) (by omega)
      refine ⟨m2, ?_, by omega, fun k => ?_⟩
      · rw [heapSwapLoop, if_pos h64, e1]; exact e2
      · rw [g2]
        by_cases ka : a ≤ k ∧ k < a + len
        · rw [if_pos ka]
          by_cases ka' : a ≤ k ∧ k < a + (len - 64)
          · rw [if_pos ka', g1, if_neg (by omega), if_neg (by omega)]
          · rw [if_neg ka', if_neg (by omega), g1, if_pos (by omega)]
            congr 1; omega
        · rw [if_neg ka, if_neg (by omega)]
          by_cases kb : b ≤ k ∧ k < b + len
          · rw [if_pos kb]
            by_cases kb' : b ≤ k ∧ k < b + (len - 64)
            · rw [if_pos kb', g1, if_neg (by omega), if_neg (by omega)]
            · rw [if_neg kb', g1, if_neg (by omega), if_pos (by omega)]
              congr 1; omega
          · rw [if_neg kb, if_neg (by omega), g1, if_neg (by omega), if_neg (by omega)]
    · obtain ⟨m', e, l, g⟩ := swap64_get (m := m) (a := a) (b := b) (len := len) (by omega) ha hb hd
      exact ⟨m', by rw [heapSwapLoop, if_neg h64]; exact e, l, g⟩

variable {M : ℕ}

theorem offset_eq {c s i : ℕ} (hM : c * s ≤ M) (hi : i < c) :
    i * s % (M + 1) = i * s ∧ i * s + s ≤ c * s := by
  have h : (i + 1) * s ≤ c * s := Nat.mul_le_mul_right s hi
  rw [Nat.succ_mul] at h
  exact ⟨Nat.mod_eq_of_lt (by omega), h⟩

theorem disjoint_of_ne {s i j : ℕ} (h : i ≠ j) : i * s + s ≤ j * s ∨ j * s + s ≤ i * s := by
  rcases Nat.lt_or_gt_of_ne h with h | h
  · left
    have := Nat.mul_le_mul_right s h
    rwa [Nat.succ_mul] at this
  · right
    have := Nat.mul_le_mul_right s h
    rwa [Nat.succ_mul] at this

theorem elemAt_eq {s : ℕ} {m : List UInt8} {a : List (List UInt8)} (h : Holds s m a)
    (hM : a.length * s ≤ M) {i : ℕ} (hi : i < a.length) : elemAt M m s i = a[i]? := by
  obtain ⟨e, hb⟩ := offset_eq hM hi
  rw [elemAt, e, if_pos (by rw [h.length]; exact hb), List.getElem?_eq_getElem hi]
  congr 1
  refine List.ext_getElem? fun t => ?_
  rw [load_get]
  by_cases ht : t < s
  · rw [if_pos ht, h.get ht, List.getElem?_eq_getElem hi]; rfl
  · rw [if_neg ht, List.getElem?_eq_none]
    rw [h.each _ (List.getElem_mem hi)]; omega

theorem cmpAt_eq {s : ℕ} {m : List UInt8} {a : List (List UInt8)} (h : Holds s m a)
    (hM : a.length * s ≤ M) (cmp : List UInt8 → List UInt8 → Int × Nat) {i j : ℕ} (hi : i < a.length)
    (hj : j < a.length) : cmpAt M cmp m s i j = Hsort.cmpAt cmp a i j := by
  rw [cmpAt, Hsort.cmpAt, elemAt_eq h hM hi, elemAt_eq h hM hj]
  rw [List.getElem?_eq_getElem hi, List.getElem?_eq_getElem hj]

theorem heapSwap_holds {s : ℕ} {m : List UInt8} {a : List (List UInt8)} (h : Holds s m a)
    (hM : a.length * s ≤ M) {i j : ℕ} (hi : i < a.length) (hj : j < a.length) (hij : i ≠ j)
    {a' : List (List UInt8)} (e : Hsort.heapSwap a i j = some a') :
    ∃ m', heapSwap M m i j s = some m' ∧ Holds s m' a' ∧ a'.length = a.length := by
  rw [Hsort.heapSwap_eq hi hj] at e
  cases e
  obtain ⟨ei, bi⟩ := offset_eq hM hi
  obtain ⟨ej, bj⟩ := offset_eq hM hj
  have hl := h.length
  obtain ⟨m', e, l, g⟩ := swapLoop_get s (m := m) (a := i * s) (b := j * s) (by omega) (by omega)
    (disjoint_of_ne hij)
  refine ⟨m', by rw [heapSwap, ei, ej]; exact e, Holds.of_get ?_ ?_ ?_, by simp⟩
  · intro x hx
    rcases List.mem_or_eq_of_mem_set hx with hx | hx
    · rcases List.mem_or_eq_of_mem_set hx with hx | hx
      · exact h.each x hx
      · rw [hx]; exact h.each _ (List.getElem_mem hj)
    · rw [hx]; exact h.each _ (List.getElem_mem hi)
  · rw [l, hl]; simp
  · intro k o hk ho
    rw [g, Hsort.swap_get hi hj hij]
    by_cases h1 : k = i
    · rw [if_pos h1, h1, if_pos (by omega), show j * s + (i * s + o - i * s) = j * s + o by omega, h.get ho]
    · have hd1 := disjoint_of_ne (s := s) h1
      rw [if_neg h1, if_neg (by omega)]
      by_cases h2 : k = j
      · rw [if_pos h2, h2, if_pos (by omega), show i * s + (j * s + o - j * s) = i * s + o by omega, h.get ho]
      · have hd2 := disjoint_of_ne (s := s) h2
        rw [if_neg h2, if_neg (by omega), h.get ho]

theorem heapStep_eq {s : ℕ} {m : List UInt8} {a : List (List UInt8)} (h : Holds s m a)
    (hM : a.length * s ≤ M) (hc : a.length ≤ M) (cmp : List UInt8 → List UInt8 → Int × Nat) {i hs : ℕ}
    (hi : i < hs / 2) (hhs : hs ≤ a.length) : heapStep M cmp m s i hs = Hsort.heapStep cmp a i hs := by
  have c1 : heapChild1 M i = some (2 * i + 1) := by rw [heapChild1, if_pos (by omega)]
  have c2 : heapChild2 M i = some (2 * i + 1 + 1) := by rw [heapChild2, if_pos (by omega), c1]
  rw [heapStep, if_pos (by omega), c1, c2]
  dsimp only
  rw [if_pos (by omega), Hsort.heapStep]
  dsimp only
  rw [cmpAt_eq h hM cmp (i := 2 * i + 1) (j := i) (by omega) (by omega)]
  by_cases h2 : 2 * i + 1 + 1 < hs
  · rw [if_pos h2, if_pos h2, cmpAt_eq h hM cmp (i := 2 * i + 1 + 1) (j := 2 * i + 1) (by omega) (by omega),
      cmpAt_eq h hM cmp (i := 2 * i + 1 + 1) (j := i) (by omega) (by omega)]
    rfl
  · rw [if_neg h2, if_neg h2]
    rfl

theorem heapStep_lt {α : Type} {cmp : α → α → Int × Nat} {a : List α} {i hs c e : ℕ} (hi : i < hs / 2)
    (h : Hsort.heapStep cmp a i hs = some (some c, e)) : c < hs := by
  simp only [Hsort.heapStep] at h
  split at h
  · split at h
    · cases h
    · split at h
      · split at h
        · cases h
        · have := congrArg Prod.fst (Option.some.inj h)
          simp only at this
          split at this
          · have := Option.some.inj this; omega
          · cases this
      · split at h
        · cases h
        · have := congrArg Prod.fst (Option.some.inj h)
          simp only at this
          split at this
          · have := Option.some.inj this; omega
          · cases this
  · split at h
    · cases h
    · have := congrArg Prod.fst (Option.some.inj h)
      simp only at this
      split at this
      · have := Option.some.inj this; omega
      · cases this

theorem heapDown_holds {s : ℕ} (cmp : List UInt8 → List UInt8 → Int × Nat) (hs : ℕ) : ∀ (d i : ℕ)
    {m : List UInt8} {a : List (List UInt8)} {ill : ℕ}, hs - i ≤ d → Holds s m a → a.length * s ≤ M →
    a.length ≤ M → hs ≤ a.length → ∀ {b : List (List UInt8)} {ill' : ℕ},
    Hsort.heapDown cmp hs i a ill = some (b, ill') →
    ∃ m', heapDown M cmp s hs i m ill = some (m', ill') ∧ Holds s m' b ∧ b.length = a.length := by
  intro d
  induction d with
  | zero =>
    intro i m a ill hd h hM hc hhs b ill' e
    rw [Hsort.heapDown, dif_neg (by omega)] at e
    cases e
    exact ⟨m, by rw [heapDown, dif_neg (by omega)], h, rfl⟩
  | succ d ih =>
    intro i m a ill hd h hM hc hhs b ill' e
    rw [Hsort.heapDown] at e
    rw [heapDown]
    by_cases hi : i < hs / 2
    · rw [dif_pos hi] at e ⊢
      rw [heapStep_eq h hM hc cmp hi hhs]
      split at e
      · cases e
      · rename_i e1 e2
        cases e
        rw [e2]
        exact ⟨m, rfl, h, rfl⟩
      · rename_i c e1 e2
        have h1 := Hsort.heapStep_gt e2
        have h2 := heapStep_lt hi e2
        split at e
        · cases e
        · rename_i a1 e3
          obtain ⟨m1, f1, f2, f3⟩ := heapSwap_holds h hM (by omega) (by omega) (by omega) e3
          obtain ⟨m2, g1, g2, g3⟩ := ih c (m := m1) (a := a1) (by omega) f2 (by rw [f3]; exact hM)
            (by rw [f3]; exact hc) (by rw [f3]; exact hhs) e
          refine ⟨m2, ?_, g2, g3.trans f3⟩
          rw [e2]
          dsimp only
          rw [f1]
          dsimp only
          rw [dif_pos h1, g1]
    · rw [dif_neg hi] at e ⊢
      cases e
      exact ⟨m, rfl, h, rfl⟩

theorem buildHeap_holds {s : ℕ} (cmp : List UInt8 → List UInt8 → Int × Nat) (count : ℕ) : ∀ (i : ℕ)
    {m : List UInt8} {a : List (List UInt8)} {ill : ℕ}, Holds s m a → a.length * s ≤ M → a.length ≤ M →
    count ≤ a.length → ∀ {b : List (List UInt8)} {ill' : ℕ},
    Hsort.buildHeap cmp count i a ill = some (b, ill') →
    ∃ m', buildHeap M cmp s count i m ill = some (m', ill') ∧ Holds s m' b ∧ b.length = a.length := by
  intro i
  induction i with
  | zero =>
    intro m a ill h _ _ _ b ill' e
    cases e
    exact ⟨m, rfl, h, rfl⟩
  | succ i ih =>
    intro m a ill h hM hc hhs b ill' e
    rw [Hsort.buildHeap] at e
    split at e
    · cases e
    · rename_i a1 i1 e1
      obtain ⟨m1, f1, f2, f3⟩ := heapDown_holds cmp count _ i le_rfl h hM hc hhs e1
      obtain ⟨m2, g1, g2, g3⟩ := ih f2 (by rw [f3]; exact hM) (by rw [f3]; exact hc) (by rw [f3]; exact hhs) e
      exact ⟨m2, by rw [buildHeap, f1]; exact g1, g2, g3.trans f3⟩

theorem extract_holds {s : ℕ} (cmp : List UInt8 → List UInt8 → Int × Nat) : ∀ (i : ℕ)
    {m : List UInt8} {a : List (List UInt8)} {ill : ℕ}, Holds s m a → a.length * s ≤ M → a.length ≤ M →
    i ≤ a.length → ∀ {b : List (List UInt8)} {ill' : ℕ}, Hsort.extract cmp i a ill = some (b, ill') →
    ∃ m', extract M cmp s i m ill = some (m', ill') ∧ Holds s m' b ∧ b.length = a.length := by
  intro i
  induction i with
  | zero =>
    intro m a ill h _ _ _ b ill' e
    cases e
    exact ⟨m, rfl, h, rfl⟩
  | succ i ih =>
    intro m a ill h hM hc hhs b ill' e
    rw [Hsort.extract] at e
    rw [extract]
    by_cases hi : 1 < i + 1
    · rw [if_pos hi] at e ⊢
      split at e
      · cases e
      · rename_i a1 e1
        obtain ⟨m1, f1, f2, f3⟩ := heapSwap_holds h hM (by omega) (by omega) (by omega) e1
        split at e
        · cases e
        · rename_i a2 i2 e2
          obtain ⟨m2, g1, g2, g3⟩ := heapDown_holds (M := M) cmp i _ 0 le_rfl f2 (by rw [f3]; exact hM)
            (by rw [f3]; exact hc) (by rw [f3]; omega) e2
          obtain ⟨m3, k1, k2, k3⟩ := ih g2 (by rw [g3, f3]; exact hM) (by rw [g3, f3]; exact hc)
            (by rw [g3, f3]; omega) e
          refine ⟨m3, ?_, k2, k3.trans (g3.trans f3)⟩
          rw [f1]
          dsimp only
          rw [g1]
          exact k1
    · rw [if_neg hi] at e ⊢
      cases e
      exact ⟨m, rfl, h, rfl⟩

theorem hsort_holds {s : ℕ} {cmp : List UInt8 → List UInt8 → Int × Nat} {a b : List (List UInt8)} {ill : ℕ}
    (he : ∀ x ∈ a, x.length = s) (hM : a.length * s ≤ M) (hc : a.length ≤ M)
    (e : Hsort.hsort cmp a = some (b, ill)) :
    hsort M cmp a.flatten a.length s = some (b.flatten, ill) := by
  rw [Hsort.hsort] at e
  split at e
  · cases e
  · rename_i a1 i1 e1
    obtain ⟨m1, f1, f2, f3⟩ := buildHeap_holds (M := M) cmp a.length _ (m := a.flatten) ⟨rfl, he⟩ hM hc le_rfl e1
    obtain ⟨m2, g1, g2, _⟩ := extract_holds (M := M) cmp a.length f2 (by rw [f3]; exact hM) (by rw [f3]; exact hc)
      (by rw [f3]) e
    rw [hsort, f1]
    dsimp only
    rw [g1, g2.flat]

end Secp.Model.HsortMem
