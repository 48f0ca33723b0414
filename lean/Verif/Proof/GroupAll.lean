import Verif.Model.GroupAll
import Verif.Proof.Group

/-! # Batch conversion to affine coordinates -/

namespace Secp
open WeierstrassCurve Model FeOps

theorem geSetGejZinv_rep {b : Fp} {a : Gej Fp} {P} (h : GejRep b a P) {zi : Fp}
    (hz : a.infinity = false → zi = a.z⁻¹) : GeRep b (geSetGejZinv a zi) P := by
  cases hi : a.infinity
  · obtain ⟨x, y, hn, hz', hx, hy, rfl⟩ := h.elim hi
    rw [hz hi]
    apply GeRep.intro
    · simp [geSetGejZinv, hi]
    · simp only [geSetGejZinv, mul, sqr, hx]; field_simp
    · simp only [geSetGejZinv, mul, sqr, hy]; field_simp
  · obtain rfl := h.inf_iff.1 hi
    simp [GeRep, geSetGejZinv, hi]

theorem setInt_zero_fp : (setInt 0 : Fp) = 0 := Nat.cast_zero

/-! ### `secp256k1_ge_set_all_gej` -/

/-- The reversed list holds the products of the z coordinates up to each entry. -/
def ZProds : List (Fp × Gej Fp) → Prop
  | [] => True
  | [(x, a)] => x = a.z ∧ a.z ≠ 0
  | (x, a) :: (x', a') :: rest => x = x' * a.z ∧ a.z ≠ 0 ∧ ZProds ((x', a') :: rest)

theorem ZProds.ne_zero : ∀ {x : Fp} {a : Gej Fp} {rest}, ZProds ((x, a) :: rest) → x ≠ 0
  | _, _, [], h => by rw [h.1]; exact h.2
  | _, _, (_, _) :: _, h => by rw [h.1]; exact mul_ne_zero h.2.2.ne_zero h.2.1

theorem allGejBackward_eq : ∀ (rest : List (Fp × Gej Fp)) (x : Fp) (a : Gej Fp) (acc : List Fp),
    ZProds ((x, a) :: rest) →
    allGejBackward ((x, a) :: rest) x⁻¹ acc = (((x, a) :: rest).map fun q => q.2.z⁻¹).reverse ++ acc
  | [], x, a, acc, h => by simp [allGejBackward, h.1]
  | (x', a') :: rest, x, a, acc, h => by
    obtain ⟨h1, h2, h3⟩ := h
    have hx' := h3.ne_zero
    have e1 : mul (x⁻¹) a.z = x'⁻¹ := by
      rw [h1]; simp only [mul]; field_simp
    have e2 : mul x' x⁻¹ = a.z⁻¹ := by
      rw [h1]; simp only [mul]; field_simp
    rw [allGejBackward, e1, e2, allGejBackward_eq rest x' a' _ h3]
    simp

theorem allGejForward_prods : ∀ (rest : List (Gej Fp)) (x : Fp) (a : Gej Fp) (l),
    ZProds ((x, a) :: l) → (∀ c ∈ rest, c.z ≠ 0) →
    ∃ x' a' l', ((allGejForward x rest).zip rest).reverse ++ (x, a) :: l = (x', a') :: l' ∧
      ZProds ((x', a') :: l') ∧ (x :: allGejForward x rest).getLastD 0 = x'
  | [], x, a, l, h, _ => ⟨x, a, l, by simp [allGejForward], h, by simp [allGejForward]⟩
  | c :: rest, x, a, l, h, hz => by
    have h' : ZProds ((mul x c.z, c) :: (x, a) :: l) := ⟨rfl, hz c (by simp), h⟩
    obtain ⟨x', a', l', e, hp, hl⟩ := allGejForward_prods rest (mul x c.z) c _ h'
      (fun d hd => hz d (by simp [hd]))
    refine ⟨x', a', l', ?_, hp, ?_⟩
    · rw [← e]; simp [allGejForward]
    · rw [← hl]; simp [allGejForward]

theorem allGejForward_length (x : Fp) (l : List (Gej Fp)) : (allGejForward x l).length = l.length := by
  induction l generalizing x with
  | nil => rfl
  | cons a l ih => simp [allGejForward, ih]

theorem geSetAllGej_eq {a : List (Gej Fp)} (hz : ∀ c ∈ a, c.z ≠ 0) :
    geSetAllGej a = a.map fun c => geSetGejZinv c c.z⁻¹ := by
  cases a with
  | nil => rfl
  | cons a0 rest =>
    obtain ⟨x', a', l', e, hp, hl⟩ := allGejForward_prods rest a0.z a0 []
      ⟨rfl, hz a0 (by simp)⟩ (fun d hd => hz d (by simp [hd]))
    have e' : ((a0.z :: allGejForward a0.z rest).zip (a0 :: rest)).reverse = (x', a') :: l' := by
      rw [← e]; simp
    simp only [geSetAllGej]
    rw [e', setInt_zero_fp, hl]
    have := allGejBackward_eq l' x' a' [] hp
    rw [show (inv x' : Fp) = x'⁻¹ from rfl, this, ← e', List.append_nil, ← List.map_reverse,
      List.reverse_reverse, show (fun q : Fp × Gej Fp => q.2.z⁻¹) =
        (fun c : Gej Fp => c.z⁻¹) ∘ Prod.snd from rfl, ← List.map_map, List.map_snd_zip (by simp [allGejForward_length]), List.zipWith_map_right,
      List.zipWith_self]

theorem geSetAllGej_rep {b : Fp} {a : List (Gej Fp)} {Ps} (h : List.Forall₂ (GejRep b) a Ps)
    (hP : ∀ P ∈ Ps, P ≠ 0) : List.Forall₂ (GeRep b) (geSetAllGej a) Ps := by
  have hz : ∀ c ∈ a, c.z ≠ 0 := by
    induction h with
    | nil => simp
    | cons h _ ih =>
      intro c hc
      rcases List.mem_cons.1 hc with rfl | hc
      · obtain ⟨_, _, _, hz, _⟩ := h.elim (by
          rw [Bool.eq_false_iff, Ne, h.inf_iff]; exact hP _ (by simp))
        exact hz
      · exact ih (fun P h => hP P (by simp [h])) c hc
  rw [geSetAllGej_eq hz]
  clear hz hP
  induction h with
  | nil => exact .nil
  | cons h _ ih => exact .cons (geSetGejZinv_rep h fun _ => rfl) ih

/-! ### `secp256k1_ge_set_all_gej_var` -/

/-- The reversed list holds the products of the z coordinates of the finite entries up to each
entry; `l` is the product of all of them. -/
def VProds : List (Gej Fp × Fp) → Option Fp → Prop
  | [], l => l = none
  | (a, x) :: rest, l =>
    if a.infinity then VProds rest l
    else a.z ≠ 0 ∧ l = some x ∧ ∃ l', VProds rest l' ∧ x = l'.elim a.z (· * a.z)

def vinv (q : Gej Fp × Fp) : Fp := if q.1.infinity then 0 else q.1.z⁻¹

theorem VProds.ne_zero : ∀ {q} {x : Fp}, VProds q (some x) → x ≠ 0
  | [], _, h => by cases h
  | (a, y) :: rest, x, h => by
    rw [VProds] at h
    split at h
    · exact h.ne_zero
    · obtain ⟨h1, h2, l', h3, h4⟩ := h
      obtain rfl := Option.some.inj h2
      rw [h4]
      cases l' with
      | none => exact h1
      | some l' => exact mul_ne_zero h3.ne_zero h1

theorem allVarBackward_eq : ∀ (rest : List (Gej Fp × Fp)) (lastZ : Fp) (l : Option Fp), lastZ ≠ 0 →
    VProds rest l →
    allVarBackward lastZ (l.elim lastZ (· * lastZ))⁻¹ rest = (lastZ⁻¹, rest.map vinv)
  | [], lastZ, l, hz, h => by
    obtain rfl : l = none := h
    rfl
  | (a, x) :: rest, lastZ, l, hz, h => by
    rw [VProds] at h
    rw [allVarBackward]
    by_cases hi : a.infinity = true
    · rw [if_pos hi] at h
      rw [if_pos hi]
      simp only [allVarBackward_eq rest lastZ l hz h, List.map_cons]
      rw [vinv, if_pos hi, setInt_zero_fp]
    · rw [if_neg hi] at h
      rw [if_neg hi]
      have hx : x ≠ 0 := by
        have : VProds ((a, x) :: rest) l := by rw [VProds, if_neg hi]; exact h
        rw [h.2.1] at this
        exact this.ne_zero
      obtain ⟨h1, rfl, l', h3, h4⟩ := h
      simp only [Option.elim_some]
      have e1 : mul (x * lastZ)⁻¹ lastZ = (l'.elim a.z (· * a.z))⁻¹ := by
        rw [← h4]; simp only [mul]; field_simp
      have e2 : mul x (x * lastZ)⁻¹ = lastZ⁻¹ := by
        simp only [mul]; field_simp
      rw [e1, e2]
      simp only [allVarBackward_eq rest a.z l' h1 h3, List.map_cons]
      rw [vinv, if_neg hi]

theorem allVarInverses_eq : ∀ (q : List (Gej Fp × Fp)) (l : Fp), VProds q (some l) →
    allVarInverses l⁻¹ q = q.map vinv
  | [], _, h => by cases h
  | (a, x) :: rest, l, h => by
    rw [VProds] at h
    rw [allVarInverses, List.map_cons, vinv]
    by_cases hi : a.infinity = true
    · rw [if_pos hi] at h
      rw [if_pos hi, if_pos hi, allVarInverses_eq rest l h, setInt_zero_fp]
    · rw [if_neg hi] at h
      rw [if_neg hi, if_neg hi]
      obtain ⟨h1, h2, l', h3, h4⟩ := h
      obtain rfl := Option.some.inj h2
      rw [h4]
      simp only [allVarBackward_eq rest a.z l' h1 h3]

theorem allVarForward_cons (l : Option Fp) (c : Gej Fp) (a : List (Gej Fp)) :
    allVarForward l (c :: a) =
      if c.infinity then (0 :: (allVarForward l a).1, (allVarForward l a).2)
      else (l.elim c.z (· * c.z) :: (allVarForward (some (l.elim c.z (· * c.z))) a).1,
        (allVarForward (some (l.elim c.z (· * c.z))) a).2) := by
  rw [← setInt_zero_fp]
  cases l <;> rfl

theorem allVarForward_prods : ∀ (a : List (Gej Fp)) (q : List (Gej Fp × Fp)) (l : Option Fp),
    (∀ c ∈ a, c.infinity = false → c.z ≠ 0) → VProds q l →
    VProds ((a.zip (allVarForward l a).1).reverse ++ q) (allVarForward l a).2
  | [], q, l, _, h => by simpa [allVarForward] using h
  | c :: a, q, l, hz, h => by
    have hz' : ∀ d ∈ a, d.infinity = false → d.z ≠ 0 := fun d hd => hz d (by simp [hd])
    rw [allVarForward_cons]
    by_cases hi : c.infinity = true
    · rw [if_pos hi]
      have := allVarForward_prods a ((c, 0) :: q) l hz' (by rw [VProds, if_pos hi]; exact h)
      simpa using this
    · rw [if_neg hi]
      have := allVarForward_prods a ((c, l.elim c.z (· * c.z)) :: q) (some (l.elim c.z (· * c.z))) hz' (by
        rw [VProds, if_neg hi]
        exact ⟨hz c (by simp) (by simpa using hi), rfl, l, h, rfl⟩)
      simpa using this

theorem allVarForward_length (l : Option Fp) (a : List (Gej Fp)) :
    (allVarForward l a).1.length = a.length := by
  induction a generalizing l with
  | nil => rfl
  | cons c a ih =>
    rw [allVarForward_cons]
    split <;> simp [ih]

theorem allVarForward_none : ∀ (a : List (Gej Fp)) (l : Option Fp), (allVarForward l a).2 = none →
    l = none ∧ ∀ c ∈ a, c.infinity = true
  | [], l, h => ⟨h, by simp⟩
  | c :: a, l, h => by
    rw [allVarForward_cons] at h
    by_cases hi : c.infinity = true
    · rw [if_pos hi] at h
      obtain ⟨h1, h2⟩ := allVarForward_none a l h
      exact ⟨h1, by simpa [hi] using h2⟩
    · rw [if_neg hi] at h
      exact absurd (allVarForward_none a _ h).1 (by simp)

theorem geSetAllGejVar_eq {a : List (Gej Fp)} (hz : ∀ c ∈ a, c.infinity = false → c.z ≠ 0) :
    geSetAllGejVar a = a.map fun c => if c.infinity then geInfinity else geSetGejZinv c c.z⁻¹ := by
  unfold geSetAllGejVar
  simp only
  cases hl : (allVarForward none a).2 with
  | none =>
    refine List.map_congr_left fun c hc => ?_
    rw [(allVarForward_none a none hl).2 c hc, if_pos rfl]
  | some l =>
    have hp := allVarForward_prods a [] none hz rfl
    rw [List.append_nil, hl] at hp
    simp only
    rw [show (invVar l : Fp) = l⁻¹ from rfl, allVarInverses_eq _ _ hp, ← List.map_reverse, List.reverse_reverse]
    have : (a.zip (allVarForward none a).1).map vinv =
        a.map fun c => if c.infinity then 0 else c.z⁻¹ := by
      rw [show vinv = (fun c : Gej Fp => if c.infinity then (0 : Fp) else c.z⁻¹) ∘ Prod.fst from rfl,
        ← List.map_map, List.map_fst_zip (by simp [allVarForward_length])]
    rw [this, List.zipWith_map_right, List.zipWith_self]
    refine List.map_congr_left fun c _ => ?_
    split <;> rfl

theorem geSetAllGejVar_rep {b : Fp} {a : List (Gej Fp)} {Ps} (h : List.Forall₂ (GejRep b) a Ps) :
    List.Forall₂ (GeRep b) (geSetAllGejVar a) Ps := by
  have hz : ∀ c ∈ a, c.infinity = false → c.z ≠ 0 := by
    induction h with
    | nil => simp
    | cons h _ ih =>
      intro c hc hi
      rcases List.mem_cons.1 hc with rfl | hc
      · obtain ⟨_, _, _, hz, _⟩ := h.elim hi
        exact hz
      · exact ih c hc hi
  rw [geSetAllGejVar_eq hz]
  clear hz
  induction h with
  | nil => exact .nil
  | cons h _ ih =>
    refine .cons ?_ ih
    simp only
    split
    · rename_i hi
      obtain rfl := h.inf_iff.1 hi
      exact geInfinity_rep b
    · exact geSetGejZinv_rep h fun _ => rfl

end Secp
