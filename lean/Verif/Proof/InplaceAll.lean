import Verif.Model.InplaceAll
import Verif.Model.GroupAll
import Verif.Model.Ecmult
import Verif.Proof.Inplace

/-!
# Runs of the loops of the group code on memory
-/

namespace Secp.Model.Mem

open FeOps

variable {α : Type}

theorem gejs_succ (m : Mem α) (a k : ℕ) : m.gejs a (k + 1) = m.gej a :: m.gejs (a + 1) k := rfl
theorem ges_succ (m : Mem α) (a k : ℕ) : m.ges a (k + 1) = m.ge a :: m.ges (a + 1) k := rfl
theorem xs_succ (m : Mem α) (a k : ℕ) : m.xs a (k + 1) = m.fe (px a) :: m.xs (a + 1) k := rfl

theorem gejs_concat (m : Mem α) (a k : ℕ) : m.gejs a (k + 1) = m.gejs a k ++ [m.gej (a + k)] := by
  simp [Mem.gejs, List.range'_1_concat]
theorem ges_concat (m : Mem α) (a k : ℕ) : m.ges a (k + 1) = m.ges a k ++ [m.ge (a + k)] := by
  simp [Mem.ges, List.range'_1_concat]
theorem xs_concat (m : Mem α) (a k : ℕ) : m.xs a (k + 1) = m.xs a k ++ [m.fe (px (a + k))] := by
  simp [Mem.xs, List.range'_1_concat]

@[simp] theorem gejs_length (m : Mem α) (a k : ℕ) : (m.gejs a k).length = k := by simp [Mem.gejs]
@[simp] theorem ges_length (m : Mem α) (a k : ℕ) : (m.ges a k).length = k := by simp [Mem.ges]
@[simp] theorem xs_length (m : Mem α) (a k : ℕ) : (m.xs a k).length = k := by simp [Mem.xs]

theorem zip_concat (m : Mem α) (a r k : ℕ) : (m.gejs a (k + 1)).zip (m.xs r (k + 1)) =
    (m.gejs a k).zip (m.xs r k) ++ [(m.gej (a + k), m.fe (px (r + k)))] := by
  rw [gejs_concat, xs_concat, List.zip_append (by simp)]
  rfl

theorem zip_concat' (m : Mem α) (a r k : ℕ) : (m.xs r (k + 1)).zip (m.gejs a (k + 1)) =
    (m.xs r k).zip (m.gejs a k) ++ [(m.fe (px (r + k)), m.gej (a + k))] := by
  rw [gejs_concat, xs_concat, List.zip_append (by simp)]
  rfl

theorem zip_concat_ge (m : Mem α) (a r k : ℕ) : (m.ges a (k + 1)).zip (m.xs r (k + 1)) =
    (m.ges a k).zip (m.xs r k) ++ [(m.ge (a + k), m.fe (px (r + k)))] := by
  rw [ges_concat, xs_concat, List.zip_append (by simp)]
  rfl

theorem gejs_congr {m m' : Mem α} {a k : ℕ} (h : ∀ o, a ≤ o → o < a + k → m'.gej o = m.gej o) :
    m'.gejs a k = m.gejs a k := by
  refine List.map_congr_left fun o ho => ?_
  rw [List.mem_range'_1] at ho
  exact h o ho.1 ho.2

theorem ges_congr {m m' : Mem α} {a k : ℕ} (h : ∀ o, a ≤ o → o < a + k → m'.ge o = m.ge o) :
    m'.ges a k = m.ges a k := by
  refine List.map_congr_left fun o ho => ?_
  rw [List.mem_range'_1] at ho
  exact h o ho.1 ho.2

theorem xs_congr {m m' : Mem α} {a k : ℕ} (h : ∀ o, a ≤ o → o < a + k → m'.fe (px o) = m.fe (px o)) :
    m'.xs a k = m.xs a k := by
  refine List.map_congr_left fun o ho => ?_
  rw [List.mem_range'_1] at ho
  exact h o ho.1 ho.2

theorem SameOut.gej {r k : ℕ} {m m' : Mem α} (h : SameOut r k m m') {o : ℕ} (ho : o < r ∨ r + k ≤ o) :
    m'.gej o = m.gej o := by
  simp [Mem.gej, h.1 o _ ho, h.2 o ho]

theorem SameOut.ge {r k : ℕ} {m m' : Mem α} (h : SameOut r k m m') {o : ℕ} (ho : o < r ∨ r + k ≤ o) :
    m'.ge o = m.ge o := by
  simp [Mem.ge, h.1 o _ ho, h.2 o ho]

/-- Only the `x` of the objects `r, …, r + k - 1` and the local variables may differ. -/
def SameX (r k : ℕ) (m m' : Mem α) : Prop :=
  (∀ o c, (o < r ∨ r + k ≤ o) ∨ c ≠ .x → m'.fe (.obj o c) = m.fe (.obj o c)) ∧ m'.inf = m.inf

theorem SameX.gej {r k : ℕ} {m m' : Mem α} (h : SameX r k m m') {o : ℕ} (ho : o < r ∨ r + k ≤ o) :
    m'.gej o = m.gej o := by
  simp [Mem.gej, h.1 o _ (Or.inl ho), h.2]

theorem SameX.ge {r k : ℕ} {m m' : Mem α} (h : SameX r k m m') {o : ℕ} (ho : o < r ∨ r + k ≤ o) :
    m'.ge o = m.ge o := by
  simp [Mem.ge, h.1 o _ (Or.inl ho), h.2]

theorem SameX.trans {r k : ℕ} {m m' m'' : Mem α} (h : SameX r k m m') (h' : SameX r k m' m'') :
    SameX r k m m'' :=
  ⟨fun o c ho => by rw [h'.1 o c ho, h.1 o c ho], by rw [h'.2, h.2]⟩

theorem SameX.mono {r k r' k' : ℕ} {m m' : Mem α} (h : SameX r' k' m m') (h1 : r ≤ r')
    (h2 : r' + k' ≤ r + k) : SameX r k m m' :=
  ⟨fun o c ho => h.1 o c (by rcases ho with ho | ho; exacts [Or.inl (by omega), Or.inr ho]), h.2⟩

theorem SameX.wr {r k : ℕ} (m : Mem α) (o : ℕ) (v : α) (h : r ≤ o ∧ o < r + k) :
    SameX r k m (m.wr (px o) v) := by
  refine ⟨fun o' c ho => ?_, rfl⟩
  simp only [Mem.wr]
  rw [if_neg]
  intro e
  injection e with e1 e2
  rcases ho with ho | ho
  · omega
  · exact ho e2

theorem SameX.wrLoc {r k : ℕ} (m : Mem α) (j : ℕ) (v : α) : SameX r k m (m.wr (.loc j) v) :=
  ⟨fun o' c ho => by simp [Mem.wr], rfl⟩

theorem SameOut.trans {r k : ℕ} {m m' m'' : Mem α} (h : SameOut r k m m') (h' : SameOut r k m' m'') :
    SameOut r k m m'' :=
  ⟨fun o c ho => by rw [h'.1 o c ho, h.1 o c ho], fun o ho => by rw [h'.2 o ho, h.2 o ho]⟩

theorem SameOut.mono {r k r' k' : ℕ} {m m' : Mem α} (h : SameOut r' k' m m') (h1 : r ≤ r')
    (h2 : r' + k' ≤ r + k) : SameOut r k m m' :=
  ⟨fun o c ho => h.1 o c (by omega), fun o ho => h.2 o (by omega)⟩

theorem SameX.out {r k : ℕ} {m m' : Mem α} (h : SameX r k m m') : SameOut r k m m' :=
  ⟨fun o c ho => h.1 o c (Or.inl ho), fun o _ => by rw [h.2]⟩

theorem SameBut.out {r : ℕ} {m m' : Mem α} (h : SameBut r none m m') : SameOut r 1 m m' :=
  ⟨fun o c ho => h.1 o c (by omega) (by simp), fun o ho => h.2 o (by omega)⟩

theorem wr_self (m : Mem α) (q : FePtr) (v : α) : (m.wr q v).fe q = v := by simp [Mem.wr]

variable [FeOps α]

theorem feMul_ok (r a b : FePtr) (h1 : r ≠ b) (h2 : a ≠ b) (m : Mem α) :
    feMul r a b m = some (m.wr r (mul (m.fe a) (m.fe b))) := by
  simp [feMul, h1, h2]

/-! ## `secp256k1_ge_set_all_gej` -/

theorem allForwardM_ok (r a len : ℕ) (hd : r + len ≤ a ∨ a + len ≤ r) (k : ℕ) : ∀ (i : ℕ) (m : Mem α),
    1 ≤ i → i + k ≤ len → Ends (allForwardM r a i k m) fun m' =>
      m'.xs (r + i) k = allGejForward (m.fe (px (r + (i - 1)))) (m.gejs (a + i) k) ∧
        SameX (r + i) k m m' := by
  induction k with
  | zero => intro i m _ _; simpa [allForwardM, Mem.xs, Mem.gejs, allGejForward] using ⟨fun _ _ _ => rfl, rfl⟩
  | succ k ih =>
    intro i m hi hk
    rw [allForwardM]
    beta_reduce
    rw [feMul_ok _ _ _ (by simp) (by simp)]
    set v := mul (m.fe (px (r + (i - 1)))) (m.fe (pz (a + i)))
    have hw : SameX (r + i) (k + 1) m (m.wr (px (r + i)) v) := SameX.wr m _ v ⟨by omega, by omega⟩
    refine (ih (i + 1) (m.wr (px (r + i)) v) (by omega) (by omega)).mono fun m' ⟨h1, h2⟩ => ⟨?_, ?_⟩
    · rw [xs_succ, gejs_succ, allGejForward, show r + i + 1 = r + (i + 1) by omega, h1,
        h2.1 (r + i) .x (Or.inl (Or.inl (by omega))), wr_self,
        show r + (i + 1 - 1) = r + i by omega, wr_self, show a + i + 1 = a + (i + 1) by omega]
      congr 2
      exact gejs_congr fun o _ _ => hw.gej (by omega)
    · exact hw.trans (h2.mono (by omega) (by omega))

theorem allBackwardM_ok (r a len : ℕ) (hd : r + len ≤ a ∨ a + len ≤ r) (i : ℕ) : ∀ m : Mem α, i < len →
    Ends (allBackwardM r a i m) fun m' =>
      (∀ acc, allGejBackward ((m.xs r (i + 1)).zip (m.gejs a (i + 1))).reverse (m.fe (.loc 2)) acc =
        m'.fe (.loc 2) :: m'.xs (r + 1) i ++ acc) ∧ SameX (r + 1) i m m' := by
  induction i with
  | zero =>
    intro m _
    simpa [allBackwardM, Mem.xs, Mem.gejs, allGejBackward] using ⟨fun _ _ _ => rfl, rfl⟩
  | succ i ih =>
    intro m hi
    simp only [allBackwardM, run]
    rw [feMul_ok _ _ _ (by simp) (by simp)]
    simp only [Option.bind_some]
    rw [feMul_ok _ _ _ (by simp) (by simp)]
    simp only [Option.bind_some]
    set v := mul (m.fe (px (r + i))) (m.fe (.loc 2))
    set m1 := m.wr (px (r + (i + 1))) v
    set u := mul (m1.fe (.loc 2)) (m1.fe (pz (a + (i + 1))))
    set m2 := m1.wr (.loc 2) u
    have hw : SameX (r + (i + 1)) 1 m m2 :=
      (SameX.wr m _ v ⟨by omega, by omega⟩).trans (SameX.wrLoc m1 2 u)
    refine (ih m2 (by omega)).mono fun m' ⟨h1, h2⟩ => ⟨fun acc => ?_, ?_⟩
    · have hA : m2.gejs a (i + 1) = m.gejs a (i + 1) := gejs_congr fun o _ _ => hw.gej (by omega)
      have hX : m2.xs r (i + 1) = m.xs r (i + 1) := xs_congr fun o _ _ => hw.1 o .x (Or.inl (by omega))
      have h1 := h1 (v :: acc)
      have hu : m2.fe (.loc 2) = mul (m.fe (.loc 2)) (m.gej (a + (i + 1))).z := by
        simp [m2, u, Mem.wr, m1, Mem.gej]
      rw [hA, hX, hu, zip_concat', List.reverse_append] at h1
      rw [zip_concat', zip_concat', List.reverse_append, List.reverse_append, xs_concat,
        show r + 1 + i = r + (i + 1) by omega,
        h2.1 (r + (i + 1)) .x (Or.inl (by omega))]
      simp only [List.reverse_singleton, List.singleton_append] at h1 ⊢
      rw [allGejBackward, h1]
      simp [m2, m1, Mem.wr]
    · exact (hw.mono (by omega) (by omega)).trans (h2.mono (by omega) (by omega))

theorem allZinvM_ok (r a len : ℕ) (hd : r + len ≤ a ∨ a + len ≤ r) (k : ℕ) : ∀ (i : ℕ) (m : Mem α),
    i + k ≤ len → Ends (allZinvM r a i k m) fun m' =>
      m'.ges (r + i) k = List.zipWith geSetGejZinv (m.gejs (a + i) k) (m.xs (r + i) k) ∧
        SameOut (r + i) k m m' := by
  induction k with
  | zero => intro i m _; simpa [allZinvM, Mem.xs, Mem.gejs, Mem.ges] using ⟨fun _ _ _ => rfl, fun _ _ => rfl⟩
  | succ k ih =>
    intro i m hk
    refine Ends.bind (geSetGejZinvM_ok (r + i) (a + i) (r + i) .x m) fun m1 ⟨g1, g2⟩ => ?_
    have hw := g2.1.out
    refine (ih (i + 1) m1 (by omega)).mono fun m' ⟨h1, h2⟩ => ⟨?_, ?_⟩
    · rw [ges_succ, gejs_succ, xs_succ, List.zipWith_cons_cons, show r + i + 1 = r + (i + 1) by omega, h1,
        h2.ge (by omega), g1, show a + i + 1 = a + (i + 1) by omega]
      congr 2
      · exact gejs_congr fun o _ _ => hw.gej (by omega)
      · exact xs_congr fun o _ _ => hw.1 o .x (by omega)
    · exact (hw.mono (by omega) (by omega)).trans (h2.mono (by omega) (by omega))

theorem geSetAllGejM_ok (r a len : ℕ) (hd : r + len ≤ a ∨ a + len ≤ r) (m : Mem α) :
    Ends (geSetAllGejM r a len m) fun m' => m'.ges r len = geSetAllGej (m.gejs a len) ∧
      SameOut r len m m' := by
  rcases len with _ | len
  · simpa [geSetAllGejM, Mem.ges, Mem.gejs, geSetAllGej] using ⟨fun _ _ _ => rfl, fun _ _ => rfl⟩
  · rw [geSetAllGejM]
    refine Ends_cons (P := fun m1 => m1 = m.wr (px r) (m.fe (pz a))) (by simp [feCopy]) ?_
    rintro m1 h1
    have s1 : SameX r (len + 1) m m1 := h1 ▸ SameX.wr m r _ ⟨by omega, by omega⟩
    refine Ends_cons (allForwardM_ok r a (len + 1) hd len 1 m1 (by omega) (by omega)) fun m2 ⟨h2, s2⟩ => ?_
    refine Ends_cons (P := fun m3 => m3 = m2.wr (.loc 2) (inv (m2.fe (px (r + len))))) (by simp [feInv]) ?_
    intro m3 h3
    have s3 : SameX r (len + 1) m2 m3 := h3 ▸ SameX.wrLoc m2 2 _
    refine Ends_cons (allBackwardM_ok r a (len + 1) hd len m3 (by omega)) fun m4 ⟨h4, s4⟩ => ?_
    refine Ends_cons (P := fun m5 => m5 = m4.wr (px r) (m4.fe (.loc 2))) (by simp [feCopy]) ?_
    intro m5 h5
    have s5 : SameX r (len + 1) m4 m5 := h5 ▸ SameX.wr m4 r _ ⟨by omega, by omega⟩
    refine Ends_one ((allZinvM_ok r a (len + 1) hd (len + 1) 0 m5 (by omega)).mono fun m' ⟨h6, s6⟩ => ?_)
    have s12 : SameX r (len + 1) m m2 := s1.trans (s2.mono (by omega) (by omega))
    have s13 := s12.trans s3
    have s15 := (s13.trans (s4.mono (by omega) (by omega))).trans s5
    have A1 : m1.gejs (a + 1) len = m.gejs (a + 1) len := gejs_congr fun o _ _ => s1.gej (by omega)
    have A3 : m3.gejs a (len + 1) = m.gejs a (len + 1) := gejs_congr fun o _ _ => s13.gej (by omega)
    have A5 : m5.gejs a (len + 1) = m.gejs a (len + 1) := gejs_congr fun o _ _ => s15.gej (by omega)
    have hxr : m1.fe (px r) = (m.gej a).z := by rw [h1, wr_self]; rfl
    have X2 : m2.xs r (len + 1) = (m.gej a).z :: allGejForward (m.gej a).z (m.gejs (a + 1) len) := by
      rw [xs_succ, h2, s2.1 r .x (Or.inl (by omega)), A1, show r + (1 - 1) = r by omega, hxr]
    have X3 : m3.xs r (len + 1) = m2.xs r (len + 1) := by rw [h3]; simp [Mem.xs, Mem.wr]
    have hu : m3.fe (.loc 2) = inv ((m2.xs r (len + 1)).getLastD (setInt 0)) := by
      rw [h3, wr_self, xs_concat]; simp
    have X5 : m5.xs r (len + 1) = m4.fe (.loc 2) :: m4.xs (r + 1) len := by
      rw [xs_succ, h5, wr_self]
      congr 1
      exact xs_congr fun o _ _ => (SameX.wr (k := 1) m4 r _ ⟨le_refl r, by omega⟩).1 o .x (Or.inl (by omega))
    have h4 := h4 []
    rw [X3, A3, hu, X2] at h4
    refine ⟨?_, s15.out.trans (s6.mono (by omega) (by omega))⟩
    simp only [Nat.add_zero] at h6
    rw [h6, A5, X5]
    rw [List.append_nil] at h4
    rw [← h4]
    rfl

/-! ## `secp256k1_ge_set_all_gej_var` -/

theorem geSetInfinityM_ok (r : ℕ) (m : Mem α) :
    Ends (geSetInfinityM r m) fun m' => m'.ge r = geInfinity ∧ SameButGe r m m' := by
  mem_simp [geSetInfinityM, geInfinity]

theorem allVarForward_neg (last : Option α) (a : Gej α) (rest : List (Gej α)) (h : a.infinity = false) :
    allVarForward last (a :: rest) =
      (last.elim a.z (mul · a.z) :: (allVarForward (some (last.elim a.z (mul · a.z))) rest).1,
        (allVarForward (some (last.elim a.z (mul · a.z))) rest).2) := by
  cases last <;> simp [allVarForward, h]

theorem allVarForward_pos (last : Option α) (a : Gej α) (rest : List (Gej α)) (h : a.infinity = true) :
    allVarForward last (a :: rest) = (setInt 0 :: (allVarForward last rest).1, (allVarForward last rest).2) := by
  simp [allVarForward, h]

theorem allVarForwardM_ok (r a len : ℕ) (hd : r + len ≤ a ∨ a + len ≤ r) (k : ℕ) :
    ∀ (i : ℕ) (last : Option ℕ) (m : Mem α), i + k ≤ len → (∀ l ∈ last, l < i) →
    ∃ m' last', allVarForwardM r a i k last m = some (m', last') ∧
      allVarForward (last.map fun l => m.fe (px (r + l))) (m.gejs (a + i) k) =
        (m'.xs (r + i) k, last'.map fun l => m'.fe (px (r + l))) ∧
      (∀ j, i ≤ j → j < i + k → m.inf (a + j) = true → m'.ge (r + j) = geInfinity) ∧
      (last' = none → last = none ∧ ∀ j, i ≤ j → j < i + k → m.inf (a + j) = true) ∧
      (∀ l, last' = some l → (last = some l ∨ (i ≤ l ∧ l < i + k ∧ m.inf (a + l) = false)) ∧
        ∀ j, i ≤ j → l < j → j < i + k → m.inf (a + j) = true) ∧
      SameOut (r + i) k m m' := by
  induction k with
  | zero =>
    intro i last m _ hl
    refine ⟨m, last, rfl, by simp [allVarForward, Mem.gejs, Mem.xs], fun j h1 h2 => absurd h2 (by omega),
      fun h => ⟨h, fun j h1 h2 => absurd h2 (by omega)⟩,
      fun l h => ⟨Or.inl h, fun j h1 _ h2 => absurd h2 (by omega)⟩, fun _ _ _ => rfl, fun _ _ => rfl⟩
  | succ k ih =>
    intro i last m hk hl
    have hin : ∀ m1 : Mem α, SameOut (r + i) 1 m m1 → ∀ j, j < len → m1.inf (a + j) = m.inf (a + j) :=
      fun m1 s j hj => s.2 (a + j) (by omega)
    have hA : ∀ m1 : Mem α, SameOut (r + i) 1 m m1 → m1.gejs (a + (i + 1)) k = m.gejs (a + i + 1) k :=
      fun m1 s => gejs_congr fun o _ _ => s.gej (by omega)
    by_cases hi : m.inf (a + i) = true
    · obtain ⟨m1, e1, g1, s1⟩ := geSetInfinityM_ok (r + i) m
      have s1 := s1.1.out
      have hl' : ∀ l ∈ last, m1.fe (px (r + l)) = m.fe (px (r + l)) := fun l h =>
        s1.1 _ _ (by have := hl l h; omega)
      obtain ⟨m', last', e, h1, h2, h3, h4, s⟩ := ih (i + 1) last m1 (by omega)
        (fun l h => by have := hl l h; omega)
      rw [hA m1 s1] at h1
      have hmap : (last.map fun l => m1.fe (px (r + l))) = last.map fun l => m.fe (px (r + l)) := by
        cases last with
        | none => rfl
        | some l => simp [hl' l rfl]
      rw [hmap] at h1
      have hgi : m'.ge (r + i) = geInfinity := by rw [s.ge (by omega), g1]
      refine ⟨m', last', ?_, ?_, ?_, ?_, ?_, (s1.mono (by omega) (by omega)).trans (s.mono (by omega) (by omega))⟩
      · simp only [allVarForwardM]
        rw [if_pos hi, e1]
        exact e
      · rw [gejs_succ, allVarForward_pos _ _ _ (by simpa [Mem.gej] using hi)]
        rw [h1, xs_succ, show r + i + 1 = r + (i + 1) by omega]
        simp only [Prod.mk.injEq, and_true, List.cons.injEq]
        exact (congrArg Ge.x hgi).symm
      · intro j j1 j2 hj
        rcases eq_or_lt_of_le j1 with rfl | j1
        · exact hgi
        · exact h2 j (by omega) (by omega) (by rw [hin m1 s1 j (by omega)]; exact hj)
      · intro h
        refine ⟨(h3 h).1, fun j j1 j2 => ?_⟩
        rcases eq_or_lt_of_le j1 with rfl | j1
        · exact hi
        · rw [← hin m1 s1 j (by omega)]
          exact (h3 h).2 j (by omega) (by omega)
      · intro l h
        obtain ⟨h41, h42⟩ := h4 l h
        refine ⟨?_, fun j j1 jl j2 => ?_⟩
        · rcases h41 with h41 | ⟨a1, a2, a3⟩
          · exact Or.inl h41
          · exact Or.inr ⟨by omega, by omega, by rw [← hin m1 s1 l (by omega)]; exact a3⟩
        · rcases eq_or_lt_of_le j1 with rfl | j1
          · exact hi
          · rw [← hin m1 s1 j (by omega)]
            exact h42 j (by omega) jl (by omega)
    · have hi' : m.inf (a + i) = false := by simpa using hi
      obtain ⟨v, hv, hf⟩ : ∃ v, allVarStoreM r a i last m = some (m.wr (px (r + i)) v) ∧
          v = (last.map fun l => m.fe (px (r + l))).elim (m.gej (a + i)).z (mul · (m.gej (a + i)).z) := by
        cases last with
        | none => exact ⟨_, rfl, rfl⟩
        | some l => exact ⟨_, feMul_ok _ _ _ (by simp) (by simp) m, rfl⟩
      set m1 := m.wr (px (r + i)) v
      have s1 : SameOut (r + i) 1 m m1 := (SameX.wr m _ v ⟨by omega, by omega⟩).out
      obtain ⟨m', last', e, h1, h2, h3, h4, s⟩ := ih (i + 1) (some i) m1 (by omega) (by simp)
      rw [hA m1 s1, Option.map_some, wr_self] at h1
      refine ⟨m', last', ?_, ?_, ?_, ?_, ?_, (s1.mono (by omega) (by omega)).trans (s.mono (by omega) (by omega))⟩
      · simp only [allVarForwardM]
        rw [if_neg hi, hv]
        exact e
      · rw [gejs_succ, allVarForward_neg _ _ _ (by simpa [Mem.gej] using hi'), ← hf, h1, xs_succ, show r + i + 1 = r + (i + 1) by omega, s.1 (r + i) .x (by omega), wr_self]
      · intro j j1 j2 hj
        rcases eq_or_lt_of_le j1 with rfl | j1
        · exact absurd hj hi
        · exact h2 j (by omega) (by omega) (by rw [hin m1 s1 j (by omega)]; exact hj)
      · intro h
        exact absurd (h3 h).1 (by simp)
      · intro l h
        obtain ⟨h41, h42⟩ := h4 l h
        refine ⟨Or.inr ?_, fun j j1 jl j2 => ?_⟩
        · rcases h41 with h41 | ⟨a1, a2, a3⟩
          · cases h41
            exact ⟨le_refl _, by omega, hi'⟩
          · exact ⟨by omega, by omega, by rw [← hin m1 s1 l (by omega)]; exact a3⟩
        · have : i ≤ l := by
            rcases h41 with h41 | ⟨a1, _, _⟩
            · cases h41
              exact le_refl _
            · omega
          rw [← hin m1 s1 j (by omega)]
          exact h42 j (by omega) jl (by omega)

theorem allVarBackwardM_ok (r a len : ℕ) (hd : r + len ≤ a ∨ a + len ≤ r) (i : ℕ) :
    ∀ (last : ℕ) (m : Mem α), i ≤ last → last < len →
    (∀ j, j < i → m.inf (a + j) = true → m.fe (px (r + j)) = setInt 0) →
    Ends (allVarBackwardM r a i last m) fun m' =>
      allVarBackward (m.fe (pz (a + last))) (m.fe (.loc 2)) ((m.gejs a i).zip (m.xs r i)).reverse =
        (m'.fe (px (r + last)), (m'.xs r i).reverse) ∧
      m'.inf = m.inf ∧
      (∀ o c, m'.fe (.obj o c) = m.fe (.obj o c) ∨
        ∃ j, (j < i ∨ j = last) ∧ o = r + j ∧ c = .x ∧ (m.inf (a + j) = false ∨ j = last)) := by
  induction i with
  | zero =>
    intro last m _ _ _
    simp only [allVarBackwardM, feCopy, Ends_some, wr_self]
    refine ⟨rfl, rfl, fun o c => ?_⟩
    by_cases h : o = r + last ∧ c = .x
    · exact Or.inr ⟨last, Or.inr rfl, h.1, h.2, Or.inr rfl⟩
    · left
      simp only [Mem.wr]
      rw [if_neg]
      intro e
      injection e with e1 e2
      exact h ⟨e1, e2⟩
  | succ i ih =>
    intro last m hl hlen h0
    simp only [allVarBackwardM]
    have hzip : ((m.gejs a (i + 1)).zip (m.xs r (i + 1))).reverse =
        (m.gej (a + i), m.fe (px (r + i))) :: ((m.gejs a i).zip (m.xs r i)).reverse := by
      rw [zip_concat, List.reverse_append]
      rfl
    have hX : ∀ m' : Mem α, (m'.xs r (i + 1)).reverse = m'.fe (px (r + i)) :: (m'.xs r i).reverse := by
      intro m'
      rw [xs_concat, List.reverse_append]
      rfl
    by_cases hi : m.inf (a + i) = true
    · rw [if_pos hi]
      refine (ih last m (by omega) hlen fun j hj => h0 j (by omega)).mono fun m' ⟨h1, h2, h3⟩ => ⟨?_, h2, ?_⟩
      · rw [hzip, hX, allVarBackward, if_pos (by simpa [Mem.gej] using hi), h1]
        simp only [Prod.mk.injEq, true_and, List.cons.injEq, and_true]
        rcases h3 (r + i) .x with h | ⟨j, hj, h, _⟩
        · rw [h, h0 i (by omega) hi]
        · omega
      · intro o c
        rcases h3 o c with h | ⟨j, hj, h, h', h''⟩
        · exact Or.inl h
        · exact Or.inr ⟨j, by omega, h, h', h''⟩
    · have hi' : m.inf (a + i) = false := by simpa using hi
      rw [if_neg hi]
      simp only [run]
      rw [feMul_ok _ _ _ (by simp) (by simp)]
      simp only [Option.bind_some]
      rw [feMul_ok _ _ _ (by simp) (by simp)]
      simp only [Option.bind_some]
      set v := mul (m.fe (px (r + i))) (m.fe (.loc 2))
      set m1 := m.wr (px (r + last)) v
      set u := mul (m1.fe (.loc 2)) (m1.fe (pz (a + last)))
      set m2 := m1.wr (.loc 2) u
      have hw : SameX (r + last) 1 m m2 := (SameX.wr m _ v ⟨by omega, by omega⟩).trans (SameX.wrLoc m1 2 u)
      refine (ih i m2 (le_refl i) (by omega) fun j hj hh => ?_).mono fun m' ⟨h1, h2, h3⟩ =>
        ⟨?_, by rw [h2, hw.2], ?_⟩
      · rw [hw.1 (r + j) .x (Or.inl (by omega))]
        exact h0 j (by omega) (by rw [← hw.2]; exact hh)
      · have hA : m2.gejs a i = m.gejs a i := gejs_congr fun o _ _ => hw.gej (by omega)
        have hXs : m2.xs r i = m.xs r i := xs_congr fun o _ _ => hw.1 o .x (Or.inl (by omega))
        have hz : m2.fe (pz (a + i)) = (m.gej (a + i)).z := hw.1 (a + i) .z (Or.inr (by simp))
        have hu : m2.fe (.loc 2) = mul (m.fe (.loc 2)) (m.fe (pz (a + last))) := by
          simp [m2, u, Mem.wr, m1]
        rw [hA, hXs, hz, hu] at h1
        rw [hzip, hX, allVarBackward, if_neg (by simpa [Mem.gej] using hi'), h1]
        simp only [Prod.mk.injEq, and_true]
        rcases h3 (r + last) .x with h | ⟨j, hj, h, _⟩
        · rw [h]
          simp [m2, m1, Mem.wr, v]
        · omega
      · intro o c
        rcases h3 o c with h | ⟨j, hj, h, h', h''⟩
        · by_cases hoc : o = r + last ∧ c = .x
          · exact Or.inr ⟨last, Or.inr rfl, hoc.1, hoc.2, Or.inr rfl⟩
          · left
            rw [h]
            refine hw.1 o c ?_
            by_cases h1 : o = r + last
            · exact Or.inr fun h2 => hoc ⟨h1, h2⟩
            · exact Or.inl (by omega)
        · refine Or.inr ⟨j, by omega, h, h', ?_⟩
          rcases h'' with h'' | h''
          · exact Or.inl (by rw [← hw.2]; exact h'')
          · exact Or.inl (by rw [h'']; exact hi')

theorem allVarInverses_ok (r a len last : ℕ) (m m' : Mem α) (u : α) (hl : last < len)
    (hinf : ∀ j, last < j → j < len → m.inf (a + j) = true ∧ m'.fe (px (r + j)) = setInt 0)
    (hni : m.inf (a + last) = false)
    (h : allVarBackward (m.fe (pz (a + last))) u ((m.gejs a last).zip (m.xs r last)).reverse =
      (m'.fe (px (r + last)), (m'.xs r last).reverse)) (k : ℕ) : last + 1 + k ≤ len →
    allVarInverses u ((m.gejs a (last + 1 + k)).zip (m.xs r (last + 1 + k))).reverse =
      (m'.xs r (last + 1 + k)).reverse := by
  induction k with
  | zero =>
    intro _
    rw [Nat.add_zero, zip_concat, xs_concat, List.reverse_append, List.reverse_append]
    simp only [List.reverse_singleton, List.singleton_append, allVarInverses]
    rw [if_neg (by simpa [Mem.gej] using hni)]
    show (allVarBackward (m.fe (pz (a + last))) u _).1 :: (allVarBackward (m.fe (pz (a + last))) u _).2 = _
    rw [h]
  | succ k ih =>
    intro hk
    obtain ⟨h1, h2⟩ := hinf (last + 1 + k) (by omega) (by omega)
    rw [show last + 1 + (k + 1) = last + 1 + k + 1 by omega, zip_concat, xs_concat, List.reverse_append,
      List.reverse_append]
    simp only [List.reverse_singleton, List.singleton_append, allVarInverses]
    rw [if_pos (by simpa [Mem.gej] using h1), ih (by omega), h2]

theorem allVarZinvM_ok (r a len : ℕ) (hd : r + len ≤ a ∨ a + len ≤ r) (k : ℕ) : ∀ (i : ℕ) (m : Mem α),
    i + k ≤ len → (∀ j, i ≤ j → j < i + k → m.inf (a + j) = true → m.ge (r + j) = geInfinity) →
    Ends (allVarZinvM r a i k m) fun m' =>
      m'.ges (r + i) k = List.zipWith (fun a zi => if a.infinity then geInfinity else geSetGejZinv a zi)
        (m.gejs (a + i) k) (m.xs (r + i) k) ∧ SameOut (r + i) k m m' := by
  induction k with
  | zero =>
    intro i m _ _
    simpa [allVarZinvM, Mem.xs, Mem.gejs, Mem.ges] using ⟨fun _ _ _ => rfl, fun _ _ => rfl⟩
  | succ k ih =>
    intro i m hk h0
    by_cases hi : m.inf (a + i) = true
    · simp only [allVarZinvM]
      rw [if_pos hi]
      refine (ih (i + 1) m (by omega) fun j _ _ => h0 j (by omega) (by omega)).mono
        fun m' ⟨h1, h2⟩ => ⟨?_, h2.mono (by omega) (by omega)⟩
      rw [ges_succ, gejs_succ, xs_succ, List.zipWith_cons_cons, show r + i + 1 = r + (i + 1) by omega, h1,
        h2.ge (by omega), if_pos (by simpa [Mem.gej] using hi), h0 i (by omega) (by omega) hi]
      rfl
    · simp only [allVarZinvM]
      rw [if_neg hi]
      refine Ends.bind (geSetGejZinvM_ok (r + i) (a + i) (r + i) .x m) fun m1 ⟨g1, g2⟩ => ?_
      have hw := g2.1.out
      refine (ih (i + 1) m1 (by omega) fun j j1 j2 hj => ?_).mono fun m' ⟨h1, h2⟩ => ⟨?_, ?_⟩
      · rw [hw.ge (by omega)]
        exact h0 j (by omega) (by omega) (by rw [← hw.2 (a + j) (by omega)]; exact hj)
      · rw [ges_succ, gejs_succ, xs_succ, List.zipWith_cons_cons, show r + i + 1 = r + (i + 1) by omega, h1,
          h2.ge (by omega), g1, show a + i + 1 = a + (i + 1) by omega, if_neg (by simpa [Mem.gej] using hi)]
        congr 2
        · exact gejs_congr fun o _ _ => hw.gej (by omega)
        · exact xs_congr fun o _ _ => hw.1 o .x (by omega)
      · exact (hw.mono (by omega) (by omega)).trans (h2.mono (by omega) (by omega))

theorem geSetAllGejVarM_ok (r a len : ℕ) (hd : r + len ≤ a ∨ a + len ≤ r) (m : Mem α) :
    Ends (geSetAllGejVarM r a len m) fun m' => m'.ges r len = geSetAllGejVar (m.gejs a len) ∧
      SameOut r len m m' := by
  obtain ⟨m1, last, e, h1, h2, h3, h4, s1⟩ := allVarForwardM_ok r a len hd len 0 none m (by omega) (by simp)
  simp only [Nat.add_zero, Option.map_none, Nat.zero_add, Nat.zero_le, true_implies] at h1 h2 h3 h4 s1
  unfold geSetAllGejVarM geSetAllGejVar
  rw [e, h1, Option.bind_some]
  cases last with
  | none =>
    simp only [Option.map_none, Ends_some]
    refine ⟨?_, s1⟩
    rw [Mem.ges, List.map_const', gejs_length, List.eq_replicate_iff]
    refine ⟨by simp, fun g hg => ?_⟩
    obtain ⟨o, ho, rfl⟩ := List.mem_map.mp hg
    rw [List.mem_range'_1] at ho
    have := h2 (o - r) (by omega) ((h3 rfl).2 _ (by omega))
    rwa [show r + (o - r) = o by omega] at this
  | some l =>
    obtain ⟨h41, h42⟩ := h4 l rfl
    obtain ⟨hlen, hni⟩ : l < len ∧ m.inf (a + l) = false := by
      rcases h41 with h | h
      · simp at h
      · exact h.2
    simp only [Option.map_some]
    have hin1 : ∀ j, j < len → m1.inf (a + j) = m.inf (a + j) := fun j hj => s1.2 _ (by omega)
    have hA1 : m1.gejs a len = m.gejs a len := gejs_congr fun o _ _ => s1.gej (by omega)
    refine Ends_cons (P := fun m2 => m2 = m1.wr (.loc 2) (invVar (m1.fe (px (r + l))))) (by simp [feInvVar]) ?_
    intro m2 e2
    have s2 : SameX r 0 m1 m2 := e2 ▸ SameX.wrLoc m1 2 _
    have o2 : ∀ o c, m2.fe (.obj o c) = m1.fe (.obj o c) := fun o c => s2.1 o c (Or.inl (by omega))
    have hg2 : ∀ o, m2.gej o = m1.gej o := fun o => s2.gej (by omega)
    have hx0 : ∀ j, j < len → m.inf (a + j) = true → m1.fe (px (r + j)) = setInt 0 := fun j hj hh =>
      congrArg Ge.x (h2 j hj hh)
    refine Ends_cons (allVarBackwardM_ok r a len hd l l m2 (le_refl l) hlen fun j hj hh => ?_)
      fun m3 ⟨g1, g2, g3⟩ => ?_
    · rw [o2]
      exact hx0 j (by omega) (by rw [← hin1 j (by omega), ← s2.2]; exact hh)
    have s3 : SameX r len m2 m3 := by
      refine ⟨fun o c ho => ?_, g2⟩
      rcases g3 o c with h | ⟨j, hj, h, h', _⟩
      · exact h
      · rcases ho with ho | ho
        · omega
        · exact absurd h' ho
    have s13 : SameX r len m1 m3 := (s2.mono (by omega) (by omega)).trans s3
    have k3 : ∀ j, j < len → m.inf (a + j) = true → m3.fe (px (r + j)) = m1.fe (px (r + j)) := by
      intro j hj hh
      rcases g3 (r + j) .x with h | ⟨j', hj', h, h', h''⟩
      · rw [h, o2]
      · exfalso
        obtain rfl : j = j' := by omega
        rcases h'' with h'' | h''
        · rw [s2.2, hin1 j hj, hh] at h''
          cases h''
        · rw [h'', hni] at hh
          cases hh
    refine Ends_one ((allVarZinvM_ok r a len hd len 0 m3 (by omega) fun j _ hj hh => ?_).mono
      fun m' ⟨q1, q2⟩ => ⟨?_, ?_⟩)
    · have hh' : m.inf (a + j) = true := by rw [← hin1 j (by omega), ← s13.2]; exact hh
      rw [← h2 j (by omega) hh']
      simp only [Mem.ge]
      rw [k3 j (by omega) hh', s13.1 (r + j) .y (Or.inr (by simp)), s13.2]
    · simp only [Nat.add_zero] at q1
      have hA3 : m3.gejs a len = m.gejs a len := by
        rw [← hA1]
        exact gejs_congr fun o _ _ => s13.gej (by omega)
      rw [q1, hA3]
      congr 1
      have hx2 : m2.xs r len = m1.xs r len := xs_congr fun o _ _ => o2 o .x
      have hA2 : m2.gejs a len = m.gejs a len := by
        rw [← hA1]
        exact gejs_congr fun o _ _ => hg2 o
      have hu : m2.fe (.loc 2) = invVar (m1.fe (px (r + l))) := by rw [e2, wr_self]
      rw [hu] at g1
      have := allVarInverses_ok r a len l m2 m3 _ hlen (fun j j1 j2 => ?_)
        (by rw [s2.2, hin1 l hlen]; exact hni) g1 (len - (l + 1)) (by omega)
      · rw [show l + 1 + (len - (l + 1)) = len by omega, hA2, hx2] at this
        rw [this, List.reverse_reverse]
      · have hh := h42 j j1 j2
        exact ⟨by rw [s2.2, hin1 j j2]; exact hh, by rw [k3 j j2 hh]; exact hx0 j j2 hh⟩
    · simp only [Nat.add_zero] at q2
      exact (s1.trans s13.out).trans q2

/-! ## `secp256k1_ge_table_set_globalz` -/

theorem globalzLoopM_ok (len a zr : ℕ) (hd : zr + len ≤ a ∨ a + len ≤ zr) (i : ℕ) : ∀ m : Mem α, i < len →
    Ends (globalzLoopM len a zr i m) fun m' =>
      (∀ acc, globalzLoop ((m.ges a i).zip (m.xs zr i)).reverse
        (if i = len - 1 then m.fe (.loc 2) else mul (m.fe (.loc 2)) (m.fe (px (zr + i)))) acc =
          m'.ges a i ++ acc) ∧ SameOut a i m m' := by
  induction i with
  | zero =>
    intro m _
    simpa [globalzLoopM, Mem.ges, Mem.xs, globalzLoop] using ⟨fun _ _ _ => rfl, fun _ _ => rfl⟩
  | succ i ih =>
    intro m hi
    simp only [globalzLoopM]
    obtain ⟨m1, e1, hz, s1⟩ : ∃ m1, (if i + 1 ≠ len - 1 then feMul (.loc 2) (.loc 2) (px (zr + (i + 1)))
        else some) m = some m1 ∧ m1.fe (.loc 2) = (if i + 1 = len - 1 then m.fe (.loc 2) else
          mul (m.fe (.loc 2)) (m.fe (px (zr + (i + 1))))) ∧ ∀ r k, SameX r k m m1 := by
      by_cases h : i + 1 = len - 1
      · exact ⟨m, by rw [if_neg (by simpa using h)], by rw [if_pos h], fun _ _ => ⟨fun _ _ _ => rfl, rfl⟩⟩
      · refine ⟨_, by rw [if_pos h, feMul_ok _ _ _ (by simp) (by simp)], by rw [if_neg h, wr_self],
          fun _ _ => SameX.wrLoc m 2 _⟩
    rw [e1, Option.bind_some]
    refine Ends.bind (geSetGeZinvM_ok (a + i) (a + i) (.loc 2) (by simp) (by simp) m1)
      fun m2 ⟨g1, g2, g3⟩ => ?_
    have s2 := g2.1.out
    have s12 : SameOut (a + i) 1 m m2 := (s1 (a + i) 1).out.trans s2
    refine (ih m2 (by omega)).mono fun m' ⟨h1, h2⟩ => ⟨fun acc => ?_, ?_⟩
    · have hA : m2.ges a i = m.ges a i := ges_congr fun o _ _ => s12.ge (by omega)
      have hX : m2.xs zr i = m.xs zr i := xs_congr fun o _ _ => s12.1 o .x (by omega)
      have hx : m2.fe (px (zr + i)) = m.fe (px (zr + i)) := s12.1 (zr + i) .x (by omega)
      have h1 := h1 (m2.ge (a + i) :: acc)
      rw [if_neg (by omega), g3 2 (by simp) (by simp), hz, hA, hX, hx, g1, hz, (s1 0 0).ge (by omega)] at h1
      rw [zip_concat_ge, List.reverse_append, ges_concat, h2.ge (by omega), g1, hz, (s1 0 0).ge (by omega)]
      simp only [List.reverse_singleton, List.singleton_append, globalzLoop]
      rw [h1]
      simp
    · exact (s12.mono (by omega) (by omega)).trans (h2.mono (by omega) (by omega))

theorem tableSetGlobalzM_ok (len a zr : ℕ) (hd : zr + len ≤ a ∨ a + len ≤ zr) (m : Mem α) :
    Ends (tableSetGlobalzM len a zr m) fun m' =>
      m'.ges a len = tableSetGlobalz ((m.ges a len).zip (m.xs zr len)) ∧ SameOut a len m m' := by
  rcases len with _ | len
  · simpa [tableSetGlobalzM, Mem.ges, Mem.xs, tableSetGlobalz] using ⟨fun _ _ _ => rfl, fun _ _ => rfl⟩
  · unfold tableSetGlobalzM
    rw [if_pos (by omega), Nat.add_sub_cancel]
    refine Ends_cons (P := fun m1 => m1.ge (a + len) =
      { m.ge (a + len) with y := normalizeWeak (m.fe (py (a + len))) } ∧ SameOut (a + len) 1 m m1) ?_
      fun m1 ⟨h1, s1⟩ => ?_
    · simp only [feNormalizeWeak, Ends_some]
      refine ⟨by simp [Mem.ge, Mem.wr], fun o c ho => ?_, fun _ _ => rfl⟩
      simp only [Mem.wr]
      rw [if_neg]
      intro e
      injection e with e1 e2
      omega
    refine Ends_cons (P := fun m2 => m2 = m1.wr (.loc 2) (m1.fe (px (zr + len)))) (by simp [feCopy]) ?_
    rintro _ rfl
    have s2 : ∀ r k, SameX r k m1 (m1.wr (.loc 2) (m1.fe (px (zr + len)))) := fun _ _ => SameX.wrLoc m1 2 _
    refine Ends_one ((globalzLoopM_ok (len + 1) a zr hd len _ (by omega)).mono fun m' ⟨h3, s3⟩ => ⟨?_, ?_⟩)
    · have h3 := h3 [m'.ge (a + len)]
      have hA : (m1.wr (.loc 2) (m1.fe (px (zr + len)))).ges a len = m.ges a len :=
        ges_congr fun o _ _ => by rw [(s2 0 0).ge (by omega), s1.ge (by omega)]
      have hX : (m1.wr (.loc 2) (m1.fe (px (zr + len)))).xs zr len = m.xs zr len :=
        xs_congr fun o _ _ => by rw [(s2 0 0).1 o .x (Or.inl (by omega)), s1.1 o .x (by omega)]
      rw [if_pos (by omega), wr_self, hA, hX, s1.1 (zr + len) .x (by omega), s3.ge (by omega),
        (s2 0 0).ge (by omega), h1] at h3
      rw [ges_concat, s3.ge (by omega), (s2 0 0).ge (by omega), h1, ← h3, zip_concat_ge, tableSetGlobalz,
        List.reverse_append]
      rfl
    · exact ((s1.mono (by omega) (by omega)).trans (s2 a (len + 1)).out).trans
        (s3.mono (by omega) (by omega))

end Secp.Model.Mem
