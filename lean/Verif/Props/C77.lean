import Verif.Proof.EcmultMultiLimb
import Verif.Props.C53
import Verif.Props.C67

/-!
# C77: multi-point multiplication on machine words

`secp256k1_ecmult_multi_var` with all its algorithms on the limbs of either field implementation: for every
list of scalars and points handed out by the callback, every scratch space and every target, no limb
overflows on the way, the result is `Σ sᵢ Pᵢ + g G`, the scratch space is left as it was found and the error
callback is not called.  Names ending in `_32` are about `field_10x26.h`, the others about `field_5x52.h`.
-/

namespace Secp
open WeierstrassCurve Model

variable [Target]

section
variable [Fe5.LimbInv]

/-- The callback hands out the `i`-th scalar and limbs of the `i`-th point of the list, within the bounds of
group.h:49-50.  Nothing is said about indices beyond the list. -/
def HandsOutLimbs (cb : MultiCallbackOf Fe5) (l : List (Fn × Pt)) : Prop :=
  ∀ i s P, l[i]? = some (s, P) → ∃ a, cb i = some (s, a) ∧ GeOk a P

/-- The values of the points. -/
def valueCb (cb : MultiCallbackOf Fe5) : MultiCallback := fun i =>
  (cb i).map fun q => (q.1, ⟨(q.2.x.nat : Fp), (q.2.y.nat : Fp), q.2.infinity⟩)

omit [Target] in
theorem HandsOutLimbs.value {cb : MultiCallbackOf Fe5} {l : List (Fn × Pt)} (h : HandsOutLimbs cb l) :
    HandsOut (valueCb cb) l := by
  intro i s P hi
  obtain ⟨a, e, ha⟩ := h i s P hi
  exact ⟨_, by unfold valueCb; rw [e]; rfl, ha.2.2⟩

omit [Target] in
theorem HandsOutLimbs.limb {cb : MultiCallbackOf Fe5} {l : List (Fn × Pt)} (h : HandsOutLimbs cb l) :
    CbLimb l.length cb (valueCb cb) := by
  intro i hi
  obtain ⟨a, e, ha⟩ := h i l[i].1 l[i].2 (by rw [List.getElem?_eq_getElem hi])
  unfold valueCb
  rw [e]
  exact .some ⟨rfl, ha.limb⟩

/-- With a scratch space. -/
theorem C77_multi {al : ℕ} (ha : AlignOk al) {s : Scratch} (h : ScratchOk s) {cb : MultiCallbackOf Fe5}
    {l : List (Fn × Pt)} (hl : l.length < szMod) (hc : HandsOutLimbs cb l) (g : Option Fn) :
    ∃ r, ecmultMultiVar al s g cb l.length = ⟨some r, s, 0⟩ ∧
      GejOk r ((l.map fun a => a.1 • a.2).sum + g.getD 0 • G) := by
  obtain ⟨R, e, hR⟩ := C53_multi ha h hl hc.value g
  obtain ⟨o1, o2, o3⟩ := ecmultMultiVar_limb hl hc.limb al s g
  rw [e] at o1 o2 o3
  generalize ecmultMultiVar al s g cb l.length = o at *
  obtain ⟨x, y, z⟩ := o
  dsimp only at o1 o2 o3
  subst o2 o3
  cases o1 with
  | some q => exact ⟨_, rfl, q.ok hR⟩

omit [Target] in
/-- Without a scratch space. -/
theorem C77_no_scratch {cb : MultiCallbackOf Fe5} {l : List (Fn × Pt)} (hc : HandsOutLimbs cb l)
    (g : Option Fn) : ∃ r, ecmultMultiVarNull g cb l.length = some r ∧
      GejOk r ((l.map fun a => a.1 • a.2).sum + g.getD 0 • G) := by
  obtain ⟨R, e, hR⟩ := C53_no_scratch hc.value g
  have hr : Option.Rel GejLimb (ecmultMultiVarNull g cb l.length) (ecmultMultiVarNull g (valueCb cb) l.length) := by
    have hinf := ecmult_limb preG_stored preG128_stored (GejLimb.infinity (α := Fe5)) 0 g
    unfold ecmultMultiVarNull
    split_ifs
    · exact .some GejLimb.infinity
    · exact .some hinf
    · exact multiSimple_limb hc.limb _ 0 (by omega) hinf
  rw [e] at hr
  generalize ecmultMultiVarNull g cb l.length = x at hr ⊢
  cases hr with
  | some q => exact ⟨_, rfl, q.ok hR⟩

/-- When the callback fails for one of the points, having handed out points before it, so does the
multiplication, and the scratch space is as before also then. -/
theorem C77_callback_failure {al : ℕ} (ha : AlignOk al) {s : Scratch} (h : ScratchOk s)
    {cb : MultiCallbackOf Fe5} {n i : ℕ} (hn : n < szMod) (hi : i < n) (hc : cb i = none)
    (hok : ∀ j q, j < n → cb j = some q → ∃ P, GeOk q.2 P) (g : Option Fn) :
    ecmultMultiVar al s g cb n = ⟨none, s, 0⟩ := by
  have hcb : CbLimb n cb (valueCb cb) := by
    intro j hj
    unfold valueCb
    cases e : cb j with
    | none => exact .none
    | some q =>
      obtain ⟨P, hP⟩ := hok j q hj e
      exact .some ⟨rfl, hP.limb⟩
  obtain ⟨o1, o2, o3⟩ := ecmultMultiVar_limb hn hcb al s g
  rw [(C53_callback_failure ha h hn hi (cb := valueCb cb) (by unfold valueCb; rw [hc]; rfl) g).1] at o1 o2 o3
  generalize ecmultMultiVar al s g cb n = o at *
  obtain ⟨x, y, z⟩ := o
  dsimp only at o1 o2 o3
  subst o2 o3
  cases o1
  rfl

omit [Target] in
/-- The core of Pippenger's algorithm on limbs, for every bucket window. -/
theorem C77_pippenger_wnaf (bw : ℕ) (l : List (Fn × Ge Fe5 × Pt)) (h : ∀ t ∈ l, GeOk t.2.1 t.2.2)
    (hs : ∀ t ∈ l, t.1.val < 2 ^ 128) :
    GejOk (pippengerWnaf bw (l.map fun t => (t.1, t.2.1))) (l.map fun t => t.1 • t.2.2).sum := by
  let val : Ge Fe5 → Ge Fp := fun a => ⟨(a.x.nat : Fp), (a.y.nat : Fp), a.infinity⟩
  have h1 : List.Forall₂ (TermLimb (α := Fe5)) (l.map fun t => (t.1, t.2.1)) (l.map fun t => (t.1, val t.2.1)) := by
    clear hs
    induction l with
    | nil => exact .nil
    | cons t l ih => exact .cons ⟨rfl, (h t (by simp)).limb⟩ (ih fun u hu => h u (by simp [hu]))
  have h2 : List.Forall₂ (fun (a : Fn × Ge Fp) P => GeRep 7 a.2 P) (l.map fun t => (t.1, val t.2.1))
      (l.map fun t => t.2.2) := by
    clear hs h1
    induction l with
    | nil => exact .nil
    | cons t l ih => exact .cons (h t (by simp)).2.2 (ih fun u hu => h u (by simp [hu]))
  have h3 := C53_pippenger_wnaf bw h2 (by
    intro a ha
    obtain ⟨u, hu, rfl⟩ := List.mem_map.1 ha
    exact hs u hu)
  have e : (((l.map fun t => (t.1, val t.2.1)).zip (l.map fun t => t.2.2)).map fun a => a.1.1 • a.2) =
      l.map fun t => t.1 • t.2.2 := by
    clear hs h h1 h2 h3
    induction l with
    | nil => rfl
    | cons t l ih => simp only [List.map_cons, List.zip_cons_cons, ih]
  rw [e] at h3
  exact (pippengerWnaf_limb bw h1).ok h3

/-! ### Concrete cases -/

omit [Target] in
theorem geConstG_ok : GeOk (geConstG : Ge Fe5) G := geConstG_limb.ok geConstG_rep

omit [Target] in
/-- A callback for any list of multiples of the generator. -/
theorem handsOut_generator (l : List Fn) :
    HandsOutLimbs (fun i => l[i]?.map fun s => (s, geConstG)) (l.map fun s => (s, G)) := by
  intro i s P hi
  rw [List.getElem?_map] at hi
  cases h : l[i]? with
  | none => rw [h] at hi; exact absurd hi (by simp)
  | some a =>
    rw [h] at hi
    obtain ⟨rfl, rfl⟩ := Prod.mk.inj (Option.some.inj hi)
    exact ⟨geConstG, by simp [h], geConstG_ok⟩

/-- `2·G + 3·G + 1·G` -/
example : ∃ (cb : MultiCallbackOf Fe5) (r : _), ecmultMultiVar 16 (exScratch 10000) (some 1) cb 2 =
    ⟨some r, exScratch 10000, 0⟩ ∧ GejOk r ((6 : Fn) • G) := by
  obtain ⟨r, e, hr⟩ := C77_multi (al := 16) (.of_small (k := 4) (by decide))
    (exScratch_ok (size := 10000) (lt_of_lt_of_le (by decide) szMod_big))
    (lt_of_lt_of_le (by decide) szMod_big) (handsOut_generator [2, 3]) (some 1)
  refine ⟨_, r, e, ?_⟩
  convert hr using 1
  simp only [List.map_cons, List.map_nil, List.sum_cons, List.sum_nil, add_zero, Option.getD_some]
  rw [← add_smul, ← add_smul]
  congr 1
  norm_num

/-- `5·G + 7·G` with buckets of every width -/
example (bw : ℕ) : GejOk (pippengerWnaf bw [(5, (geConstG : Ge Fe5)), (7, geConstG)]) ((12 : Fn) • G) := by
  have := C77_pippenger_wnaf bw [(5, geConstG, G), (7, geConstG, G)]
    (fun t ht => by
      rcases List.mem_cons.1 ht with rfl | ht
      · exact geConstG_ok
      · obtain rfl := List.mem_singleton.1 ht
        exact geConstG_ok)
    (fun t ht => by
      rcases List.mem_cons.1 ht with rfl | ht
      · exact (by decide +kernel : (5 : Fn).val < 2 ^ 128)
      · obtain rfl := List.mem_singleton.1 ht
        exact (by decide +kernel : (7 : Fn).val < 2 ^ 128))
  have e : (12 : Fn) • G = ([((5 : Fn), (geConstG : Ge Fe5), G), (7, geConstG, G)].map fun t => t.1 • t.2.2).sum := by
    rw [List.map_cons, List.map_cons, List.map_nil, List.sum_cons, List.sum_cons, List.sum_nil, add_zero,
      ← add_smul]
    congr 1
    norm_num
  rw [e]
  exact this

/-- A callback that fails at its second point. -/
example : ecmultMultiVar 16 (exScratch 10000) none
    (fun i => if i = 1 then none else some (5, (geConstG : Ge Fe5))) 4 = ⟨none, exScratch 10000, 0⟩ := by
  refine C77_callback_failure (i := 1) (.of_small (k := 4) (by decide))
    (exScratch_ok (size := 10000) (lt_of_lt_of_le (by decide) szMod_big))
    (lt_of_lt_of_le (by decide) szMod_big) (by decide) rfl ?_ none
  intro j q _ e
  split_ifs at e
  obtain rfl := Option.some.inj e
  exact ⟨G, geConstG_ok⟩

end

section
variable [Fe10.LimbInv]

/-- The callback hands out the `i`-th scalar and limbs of the `i`-th point of the list, within the bounds of
group.h:49-50.  Nothing is said about indices beyond the list. -/
def HandsOutLimbs_32 (cb : MultiCallbackOf Fe10) (l : List (Fn × Pt)) : Prop :=
  ∀ i s P, l[i]? = some (s, P) → ∃ a, cb i = some (s, a) ∧ GeOk32 a P

/-- The values of the points. -/
def valueCb_32 (cb : MultiCallbackOf Fe10) : MultiCallback := fun i =>
  (cb i).map fun q => (q.1, ⟨(q.2.x.nat : Fp), (q.2.y.nat : Fp), q.2.infinity⟩)

omit [Target] in
theorem HandsOutLimbs_32.value {cb : MultiCallbackOf Fe10} {l : List (Fn × Pt)} (h : HandsOutLimbs_32 cb l) :
    HandsOut (valueCb_32 cb) l := by
  intro i s P hi
  obtain ⟨a, e, ha⟩ := h i s P hi
  exact ⟨_, by unfold valueCb_32; rw [e]; rfl, ha.2.2⟩

omit [Target] in
theorem HandsOutLimbs_32.limb {cb : MultiCallbackOf Fe10} {l : List (Fn × Pt)} (h : HandsOutLimbs_32 cb l) :
    CbLimb l.length cb (valueCb_32 cb) := by
  intro i hi
  obtain ⟨a, e, ha⟩ := h i l[i].1 l[i].2 (by rw [List.getElem?_eq_getElem hi])
  unfold valueCb_32
  rw [e]
  exact .some ⟨rfl, ha.limb⟩

/-- With a scratch space. -/
theorem C77_multi_32 {al : ℕ} (ha : AlignOk al) {s : Scratch} (h : ScratchOk s) {cb : MultiCallbackOf Fe10}
    {l : List (Fn × Pt)} (hl : l.length < szMod) (hc : HandsOutLimbs_32 cb l) (g : Option Fn) :
    ∃ r, ecmultMultiVar al s g cb l.length = ⟨some r, s, 0⟩ ∧
      GejOk32 r ((l.map fun a => a.1 • a.2).sum + g.getD 0 • G) := by
  obtain ⟨R, e, hR⟩ := C53_multi ha h hl hc.value g
  obtain ⟨o1, o2, o3⟩ := ecmultMultiVar_limb hl hc.limb al s g
  rw [e] at o1 o2 o3
  generalize ecmultMultiVar al s g cb l.length = o at *
  obtain ⟨x, y, z⟩ := o
  dsimp only at o1 o2 o3
  subst o2 o3
  cases o1 with
  | some q => exact ⟨_, rfl, q.ok32 hR⟩

omit [Target] in
/-- Without a scratch space. -/
theorem C77_no_scratch_32 {cb : MultiCallbackOf Fe10} {l : List (Fn × Pt)} (hc : HandsOutLimbs_32 cb l)
    (g : Option Fn) : ∃ r, ecmultMultiVarNull g cb l.length = some r ∧
      GejOk32 r ((l.map fun a => a.1 • a.2).sum + g.getD 0 • G) := by
  obtain ⟨R, e, hR⟩ := C53_no_scratch hc.value g
  have hr : Option.Rel GejLimb (ecmultMultiVarNull g cb l.length) (ecmultMultiVarNull g (valueCb_32 cb) l.length) := by
    have hinf := ecmult_limb preG_stored preG128_stored (GejLimb.infinity (α := Fe10)) 0 g
    unfold ecmultMultiVarNull
    split_ifs
    · exact .some GejLimb.infinity
    · exact .some hinf
    · exact multiSimple_limb hc.limb _ 0 (by omega) hinf
  rw [e] at hr
  generalize ecmultMultiVarNull g cb l.length = x at hr ⊢
  cases hr with
  | some q => exact ⟨_, rfl, q.ok32 hR⟩

/-- When the callback fails for one of the points, having handed out points before it, so does the
multiplication, and the scratch space is as before also then. -/
theorem C77_callback_failure_32 {al : ℕ} (ha : AlignOk al) {s : Scratch} (h : ScratchOk s)
    {cb : MultiCallbackOf Fe10} {n i : ℕ} (hn : n < szMod) (hi : i < n) (hc : cb i = none)
    (hok : ∀ j q, j < n → cb j = some q → ∃ P, GeOk32 q.2 P) (g : Option Fn) :
    ecmultMultiVar al s g cb n = ⟨none, s, 0⟩ := by
  have hcb : CbLimb n cb (valueCb_32 cb) := by
    intro j hj
    unfold valueCb_32
    cases e : cb j with
    | none => exact .none
    | some q =>
      obtain ⟨P, hP⟩ := hok j q hj e
      exact .some ⟨rfl, hP.limb⟩
  obtain ⟨o1, o2, o3⟩ := ecmultMultiVar_limb hn hcb al s g
  rw [(C53_callback_failure ha h hn hi (cb := valueCb_32 cb) (by unfold valueCb_32; rw [hc]; rfl) g).1] at o1 o2 o3
  generalize ecmultMultiVar al s g cb n = o at *
  obtain ⟨x, y, z⟩ := o
  dsimp only at o1 o2 o3
  subst o2 o3
  cases o1
  rfl

omit [Target] in
/-- The core of Pippenger's algorithm on limbs, for every bucket window. -/
theorem C77_pippenger_wnaf_32 (bw : ℕ) (l : List (Fn × Ge Fe10 × Pt)) (h : ∀ t ∈ l, GeOk32 t.2.1 t.2.2)
    (hs : ∀ t ∈ l, t.1.val < 2 ^ 128) :
    GejOk32 (pippengerWnaf bw (l.map fun t => (t.1, t.2.1))) (l.map fun t => t.1 • t.2.2).sum := by
  let val : Ge Fe10 → Ge Fp := fun a => ⟨(a.x.nat : Fp), (a.y.nat : Fp), a.infinity⟩
  have h1 : List.Forall₂ (TermLimb (α := Fe10)) (l.map fun t => (t.1, t.2.1)) (l.map fun t => (t.1, val t.2.1)) := by
    clear hs
    induction l with
    | nil => exact .nil
    | cons t l ih => exact .cons ⟨rfl, (h t (by simp)).limb⟩ (ih fun u hu => h u (by simp [hu]))
  have h2 : List.Forall₂ (fun (a : Fn × Ge Fp) P => GeRep 7 a.2 P) (l.map fun t => (t.1, val t.2.1))
      (l.map fun t => t.2.2) := by
    clear hs h1
    induction l with
    | nil => exact .nil
    | cons t l ih => exact .cons (h t (by simp)).2.2 (ih fun u hu => h u (by simp [hu]))
  have h3 := C53_pippenger_wnaf bw h2 (by
    intro a ha
    obtain ⟨u, hu, rfl⟩ := List.mem_map.1 ha
    exact hs u hu)
  have e : (((l.map fun t => (t.1, val t.2.1)).zip (l.map fun t => t.2.2)).map fun a => a.1.1 • a.2) =
      l.map fun t => t.1 • t.2.2 := by
    clear hs h h1 h2 h3
    induction l with
    | nil => rfl
    | cons t l ih => simp only [List.map_cons, List.zip_cons_cons, ih]
  rw [e] at h3
  exact (pippengerWnaf_limb bw h1).ok32 h3

/-! ### Concrete cases -/

omit [Target] in
theorem geConstG_ok_32 : GeOk32 (geConstG : Ge Fe10) G := geConstG_limb.ok32 geConstG_rep

omit [Target] in
/-- A callback for any list of multiples of the generator. -/
theorem handsOut_generator_32 (l : List Fn) :
    HandsOutLimbs_32 (fun i => l[i]?.map fun s => (s, geConstG)) (l.map fun s => (s, G)) := by
  intro i s P hi
  rw [List.getElem?_map] at hi
  cases h : l[i]? with
  | none => rw [h] at hi; exact absurd hi (by simp)
  | some a =>
    rw [h] at hi
    obtain ⟨rfl, rfl⟩ := Prod.mk.inj (Option.some.inj hi)
    exact ⟨geConstG, by simp [h], geConstG_ok_32⟩

/-- `2·G + 3·G + 1·G` -/
example : ∃ (cb : MultiCallbackOf Fe10) (r : _), ecmultMultiVar 16 (exScratch 10000) (some 1) cb 2 =
    ⟨some r, exScratch 10000, 0⟩ ∧ GejOk32 r ((6 : Fn) • G) := by
  obtain ⟨r, e, hr⟩ := C77_multi_32 (al := 16) (.of_small (k := 4) (by decide))
    (exScratch_ok (size := 10000) (lt_of_lt_of_le (by decide) szMod_big))
    (lt_of_lt_of_le (by decide) szMod_big) (handsOut_generator_32 [2, 3]) (some 1)
  refine ⟨_, r, e, ?_⟩
  convert hr using 1
  simp only [List.map_cons, List.map_nil, List.sum_cons, List.sum_nil, add_zero, Option.getD_some]
  rw [← add_smul, ← add_smul]
  congr 1
  norm_num

/-- `5·G + 7·G` with buckets of every width -/
example (bw : ℕ) : GejOk32 (pippengerWnaf bw [(5, (geConstG : Ge Fe10)), (7, geConstG)]) ((12 : Fn) • G) := by
  have := C77_pippenger_wnaf_32 bw [(5, geConstG, G), (7, geConstG, G)]
    (fun t ht => by
      rcases List.mem_cons.1 ht with rfl | ht
      · exact geConstG_ok_32
      · obtain rfl := List.mem_singleton.1 ht
        exact geConstG_ok_32)
    (fun t ht => by
      rcases List.mem_cons.1 ht with rfl | ht
      · exact (by decide +kernel : (5 : Fn).val < 2 ^ 128)
      · obtain rfl := List.mem_singleton.1 ht
        exact (by decide +kernel : (7 : Fn).val < 2 ^ 128))
  have e : (12 : Fn) • G = ([((5 : Fn), (geConstG : Ge Fe10), G), (7, geConstG, G)].map fun t => t.1 • t.2.2).sum := by
    rw [List.map_cons, List.map_cons, List.map_nil, List.sum_cons, List.sum_cons, List.sum_nil, add_zero,
      ← add_smul]
    congr 1
    norm_num
  rw [e]
  exact this

/-- A callback that fails at its second point. -/
example : ecmultMultiVar 16 (exScratch 10000) none
    (fun i => if i = 1 then none else some (5, (geConstG : Ge Fe10))) 4 = ⟨none, exScratch 10000, 0⟩ := by
  refine C77_callback_failure_32 (i := 1) (.of_small (k := 4) (by decide))
    (exScratch_ok (size := 10000) (lt_of_lt_of_le (by decide) szMod_big))
    (lt_of_lt_of_le (by decide) szMod_big) (by decide) rfl ?_ none
  intro j q _ e
  split_ifs at e
  obtain rfl := Option.some.inj e
  exact ⟨G, geConstG_ok_32⟩

end

end Secp
