import Verif.Proof.InplaceAll
import Verif.Proof.InplaceHinf
import Verif.Proof.InplaceProg
import Verif.Proof.GroupAllLimb
import Verif.Props.C41All
import Verif.Props.C67
import Verif.Props.C77

/-!
# C78: point operations in place

The functions of `group_impl.h` take pointers, and the library calls them with the output equal to an
input.  For every choice of the pointers the statements, in the order of the C code and with the output used
as scratch space, leave in `*r` what the function computes from the values that `*a` and `*b` had before the
call, change no other object, and call no field function with the overlapping arguments that
`field_impl.h` excludes.  The first group of theorems is about any field implementation; the second about
programs of such calls on the limbs of `field_5x52.h` and (names with `_32`) `field_10x26.h`.
-/

namespace Secp
open Model Model.Mem FeOps

section
variable {α : Type} [FeOps α]

/-- `secp256k1_gej_double`, for every `r` and `a`, equal or not. -/
theorem C78_gej_double (r a : ℕ) (m : Mem α) :
    Ends (gejDoubleM r a m) fun m' => m'.gej r = gejDouble (m.gej a) ∧ SameBut r none m m' :=
  gejDoubleM_ok r a m

/-- `secp256k1_gej_double_var` with or without `rzr`, which may point anywhere but into `*r` and `*a`. -/
theorem C78_gej_double_var (r a : ℕ) (rzr : Option FePtr) (hz : ∀ q ∈ rzr, Apart q [r, a]) (m : Mem α) :
    Ends (gejDoubleVarM r a rzr m) fun m' => m'.gej r = (gejDoubleVar (m.gej a)).1 ∧
      (∀ q ∈ rzr, m'.fe q = (gejDoubleVar (m.gej a)).2.getD (m.fe q)) ∧ SameBut r rzr m m' :=
  gejDoubleVarM_ok r a rzr hz m

/-- `secp256k1_gej_add_var`, for every `r`, `a` and `b`: all different, `r` equal to one of the inputs, the
inputs equal, or all equal. -/
theorem C78_gej_add_var (r a b : ℕ) (rzr : Option FePtr) (hz : ∀ q ∈ rzr, Apart q [r, a, b]) (m : Mem α) :
    Ends (gejAddVarM r a b rzr m) fun m' => m'.gej r = (gejAddVar (m.gej a) (m.gej b)).1 ∧
      (∀ q ∈ rzr, m'.fe q = (gejAddVar (m.gej a) (m.gej b)).2.getD (m.fe q)) ∧ SameBut r rzr m m' :=
  gejAddVarM_ok r a b rzr hz m

/-- `secp256k1_gej_add_ge_var` -/
theorem C78_gej_add_ge_var (r a b : ℕ) (rzr : Option FePtr) (hz : ∀ q ∈ rzr, Apart q [r, a, b]) (m : Mem α) :
    Ends (gejAddGeVarM r a b rzr m) fun m' => m'.gej r = (gejAddGeVar (m.gej a) (m.ge b)).1 ∧
      (∀ q ∈ rzr, m'.fe q = (gejAddGeVar (m.gej a) (m.ge b)).2.getD (m.fe q)) ∧ SameBut r rzr m m' :=
  gejAddGeVarM_ok r a b rzr hz m

/-- `secp256k1_gej_add_zinv_var`; `bzinv` may even be a coordinate of `*r` other than `a->z`. -/
theorem C78_gej_add_zinv_var (r a b o : ℕ) (c : Coord) (hz : pz a ≠ .obj o c) (m : Mem α) :
    Ends (gejAddZinvVarM r a b (.obj o c) m) fun m' =>
      m'.gej r = gejAddZinvVar (m.gej a) (m.ge b) (m.fe (.obj o c)) ∧ SameBut r none m m' :=
  gejAddZinvVarM_ok r a b o c hz m

/-- `secp256k1_gej_add_ge`, which reads `*b` and `a->infinity` again after it has written `*r`: `b`, of
another type, is another object. -/
theorem C78_gej_add_ge (r a b : ℕ) (hb : b ≠ r) (m : Mem α) :
    Ends (gejAddGeM r a b m) fun m' => m'.gej r = gejAddGe (m.gej a) (m.ge b) ∧ SameBut r none m m' :=
  gejAddGeM_ok r a b hb m

/-- `secp256k1_gej_neg` and `secp256k1_ge_neg` -/
theorem C78_neg (r a : ℕ) (m : Mem α) :
    (Ends (gejNegM r a m) fun m' => m'.gej r = gejNeg (m.gej a) ∧ SameBut r none m m') ∧
      Ends (geNegM r a m) fun m' => m'.ge r = geNeg (m.ge a) ∧ SameButGe r m m' :=
  ⟨gejNegM_ok r a m, geNegM_ok r a m⟩

/-- `secp256k1_gej_set_ge`, `secp256k1_gej_cmov`, `secp256k1_gej_set_infinity` and
`secp256k1_ge_mul_lambda` -/
theorem C78_moves (r a : ℕ) (flag : Bool) (beta : α) (m : Mem α) :
    (Ends (gejSetGeM r a m) fun m' => m'.gej r = gejSetGe (m.ge a) ∧ SameBut r none m m') ∧
      (Ends (gejCmovM r a flag m) fun m' =>
        m'.gej r = gejCmov (m.gej r) (m.gej a) flag ∧ SameBut r none m m') ∧
      (Ends (gejSetInfinityM r m) fun m' => m'.gej r = gejInfinity ∧ SameBut r none m m') ∧
      Ends (geMulLambdaM beta r a m) fun m' =>
        m'.ge r = { m.ge a with x := mul (m.fe (px a)) beta } ∧ SameButGe r m m' :=
  ⟨gejSetGeM_ok r a m, gejCmovM_ok r a flag m, gejSetInfinityM_ok r m, geMulLambdaM_ok beta r a m⟩

/-- `secp256k1_gej_rescale` by a field element outside the point. -/
theorem C78_rescale (r o : ℕ) (c : Coord) (h : o ≠ r) (m : Mem α) :
    Ends (gejRescaleM r (.obj o c) m) fun m' =>
      m'.gej r = gejRescale (m.gej r) (m.fe (.obj o c)) ∧ SameBut r none m m' :=
  gejRescaleM_ok r o c h m

/-- Rescaling by one of its own coordinates `y` or `z` would be undefined behaviour, so the hypothesis of
`C78_rescale` is needed (for `x` the second multiplication would use the new `x`). -/
theorem C78_rescale_needs (r : ℕ) (m : Mem α) :
    gejRescaleM r (pz r) m = none ∧ gejRescaleM r (py r) m = none := by
  constructor <;> simp [gejRescaleM, run, feSqr, feMul]

/-- `secp256k1_ge_set_gej_zinv`, `secp256k1_ge_set_ge_zinv` (`r` may be `a`) and `secp256k1_ge_set_xy`. -/
theorem C78_ge_set_zinv (r a o : ℕ) (c : Coord) (m : Mem α) :
    (Ends (geSetGejZinvM r a (.obj o c) m) fun m' =>
      m'.ge r = geSetGejZinv (m.gej a) (m.fe (.obj o c)) ∧ SameButGe r m m') ∧
      (Ends (geSetGeZinvM r a (.obj o c) m) fun m' =>
        m'.ge r = geSetGeZinv (m.ge a) (m.fe (.obj o c)) ∧ SameButGe r m m') ∧
      ∀ x y, y ≠ px r →
        Ends (geSetXYM r x y m) fun m' => m'.ge r = geSetXY (m.fe x) (m.fe y) ∧ SameButGe r m m' :=
  ⟨geSetGejZinvM_ok r a o c m,
    (geSetGeZinvM_ok r a _ (by simp) (by simp) m).mono fun _ h => ⟨h.1, h.2.1⟩,
    fun x y hy => geSetXYM_ok r x y hy m⟩

/-- `secp256k1_ge_set_gej` and `secp256k1_ge_set_gej_var` overwrite `*a` as well: with the affine form of
the same point (the second leaves infinity alone). -/
theorem C78_ge_set_gej (r a : ℕ) (h : r ≠ a) (m : Mem α) :
    (Ends (geSetGejM r a m) fun m' => m'.ge r = geSetGej (m.gej a) ∧
      m'.gej a = gejSetGe (geSetGej (m.gej a)) ∧
      m'.fe (pz r) = m.fe (pz r) ∧ ∀ o, o ≠ r → o ≠ a → m'.gej o = m.gej o) ∧
    Ends (geSetGejVarM r a m) fun m' => m'.ge r = geSetGejVar (m.gej a) ∧
      (m'.gej a = if m.inf a then m.gej a else gejSetGe (geSetGejVar (m.gej a))) ∧
      m'.fe (pz r) = m.fe (pz r) ∧ ∀ o, o ≠ r → o ≠ a → m'.gej o = m.gej o := by
  refine ⟨(geSetGejM_ok r a h m).mono fun m' ⟨h1, h2, h3⟩ => ⟨h1, h2, h3⟩,
    (geSetGejVarM_ok r a h m).mono fun m' ⟨h1, h2, h3⟩ => ⟨h1, ?_, h3⟩⟩
  rw [h2]
  by_cases hi : m.inf a
  · rw [if_pos hi, if_pos hi]
  · rw [if_neg hi, if_neg hi]
    simp [gejSetGe, geSetGejVar, Mem.gej, hi, geSetXY]

/-- `secp256k1_ge_set_all_gej` and `secp256k1_ge_set_all_gej_var`, whose output array is also the array of
partial products, for arrays of any length that do not overlap. -/
theorem C78_set_all (r a len : ℕ) (hd : r + len ≤ a ∨ a + len ≤ r) (m : Mem α) :
    (Ends (geSetAllGejM r a len m) fun m' =>
      m'.ges r len = geSetAllGej (m.gejs a len) ∧ SameOut r len m m') ∧
    Ends (geSetAllGejVarM r a len m) fun m' =>
      m'.ges r len = geSetAllGejVar (m.gejs a len) ∧ SameOut r len m m' :=
  ⟨geSetAllGejM_ok r a len hd m, geSetAllGejVarM_ok r a len hd m⟩

/-- `secp256k1_ge_table_set_globalz`, which works in the table itself. -/
theorem C78_table_set_globalz (len a zr : ℕ) (hd : zr + len ≤ a ∨ a + len ≤ zr) (m : Mem α) :
    Ends (tableSetGlobalzM len a zr m) fun m' =>
      m'.ges a len = tableSetGlobalz ((m.ges a len).zip (m.xs zr len)) ∧ SameOut a len m m' :=
  tableSetGlobalzM_ok len a zr hd m

end

attribute [local instance] safegcdInv safegcdInv32

theorem ptLaws5 : PtLaws GejOk GeOk where
  double := C58_gej_double
  doubleVar := C58_gej_double_var
  addVar := C58_gej_add_var
  addGeVar := C58_gej_add_ge_var
  addGe := C58_gej_add_ge
  gejNeg h := h.limb.neg.ok (C41_neg h.2.2.2 (geInfinity_rep 7)).1
  geNeg h := h.limb.neg.ok (C41_neg (gejSetGe_rep h.2.2) h.2.2).2
  setGe := C58_set_ge
  setGej h := (C46_ge_set_gej h).1
  setGejVar h := (C46_ge_set_gej h).2
  cmov := C58_cmov

theorem ptLaws10 : PtLaws GejOk32 GeOk32 where
  double := C67_gej_double
  doubleVar := C67_gej_double_var
  addVar := C67_gej_add_var
  addGeVar := C67_gej_add_ge_var
  addGe := C67_gej_add_ge
  gejNeg h := h.limb.neg.ok32 (C41_neg h.2.2.2 (geInfinity_rep 7)).1
  geNeg h := h.limb.neg.ok32 (C41_neg (gejSetGe_rep h.2.2) h.2.2).2
  setGe := C67_set_ge
  setGej h := (C67_ge_set_gej h).1
  setGejVar h := (C67_ge_set_gej h).2
  cmov := C67_cmov

/-- Any program of calls, with any pointers of the right types: if every object represents a point within
the magnitudes of group.h before, no call is undefined, no limb overflows and every object represents
afterwards the point that the calls mean. -/
theorem C78_program (jac : ℕ → Prop) (prog : List MOp) {m : Mem Fe5} {S : ℕ → Pt}
    (hm : ∀ o, (jac o → GejOk (m.gej o) (S o)) ∧ (¬ jac o → GeOk (m.ge o) (S o)))
    (ht : ∀ op ∈ prog, op.Typed jac) (hp : Pres S prog) :
    Ends (run (prog.map MOp.stmt) m) fun m' =>
      ∀ o, (jac o → GejOk (m'.gej o) (prog.foldl MOp.points S o)) ∧
        (¬ jac o → GeOk (m'.ge o) (prog.foldl MOp.points S o)) :=
  prog_ok ptLaws5 prog hm ht hp

theorem C78_program_32 (jac : ℕ → Prop) (prog : List MOp) {m : Mem Fe10} {S : ℕ → Pt}
    (hm : ∀ o, (jac o → GejOk32 (m.gej o) (S o)) ∧ (¬ jac o → GeOk32 (m.ge o) (S o)))
    (ht : ∀ op ∈ prog, op.Typed jac) (hp : Pres S prog) :
    Ends (run (prog.map MOp.stmt) m) fun m' =>
      ∀ o, (jac o → GejOk32 (m'.gej o) (prog.foldl MOp.points S o)) ∧
        (¬ jac o → GeOk32 (m'.ge o) (prog.foldl MOp.points S o)) :=
  prog_ok ptLaws10 prog hm ht hp

/-- The table of odd multiples, made in place and brought to one z coordinate
(`secp256k1_ecmult_odd_multiples_table`, then `secp256k1_ge_table_set_globalz`): with the common z, entry
`j` represents `(2j+1)·P`, and nothing but the table, `zr`, `*z` and the local variables changes. -/
theorem C78_odd_multiples (k pre zr zo : ℕ) (zc : Coord) (a d ai dge : ℕ) (hn : 1 ≤ k) (hk : 2 * k ≤ n)
    (hpz : pre + k ≤ zr ∨ zr + k ≤ pre)
    (hout : ∀ o ∈ [a, d, ai, dge, zo], (o < pre ∨ pre + k ≤ o) ∧ (o < zr ∨ zr + k ≤ o))
    (hd : [a, d, ai, dge].Nodup) (hz : zo ∉ [d, ai, dge]) {m : Mem Fe5} {P : Pt}
    (hP : GejOk (m.gej a) P) (h0 : P ≠ 0) :
    Ends (run [oddMultiplesTableM k pre zr (.obj zo zc) a d ai dge, tableSetGlobalzM k pre zr] m) fun m' =>
      (∀ j < k, m'.inf (pre + j) = false ∧ GejOk ⟨m'.fe (px (pre + j)), m'.fe (py (pre + j)),
          m'.fe (.obj zo zc), false⟩ ((2 * j + 1) • P)) ∧
      ∀ o c, ¬ (o ∈ [d, ai, dge] ∨ (pre ≤ o ∧ o < pre + k) ∨ (zr ≤ o ∧ o < zr + k)) →
        FePtr.obj o c ≠ .obj zo zc → m'.fe (.obj o c) = m.fe (.obj o c) ∧ m'.inf o = m.inf o :=
  (oddTableM_pt k pre zr zo zc a d ai dge hn hk hpz hout hd hz m hP.limb hP.2.2.2 h0).mono
    fun _ ⟨h1, h2⟩ => ⟨fun j hj => by
      obtain ⟨e, B, l, r⟩ := h1 j hj
      exact ⟨e, l.ok r⟩, h2⟩

theorem C78_odd_multiples_32 (k pre zr zo : ℕ) (zc : Coord) (a d ai dge : ℕ) (hn : 1 ≤ k) (hk : 2 * k ≤ n)
    (hpz : pre + k ≤ zr ∨ zr + k ≤ pre)
    (hout : ∀ o ∈ [a, d, ai, dge, zo], (o < pre ∨ pre + k ≤ o) ∧ (o < zr ∨ zr + k ≤ o))
    (hd : [a, d, ai, dge].Nodup) (hz : zo ∉ [d, ai, dge]) {m : Mem Fe10} {P : Pt}
    (hP : GejOk32 (m.gej a) P) (h0 : P ≠ 0) :
    Ends (run [oddMultiplesTableM k pre zr (.obj zo zc) a d ai dge, tableSetGlobalzM k pre zr] m) fun m' =>
      (∀ j < k, m'.inf (pre + j) = false ∧ GejOk32 ⟨m'.fe (px (pre + j)), m'.fe (py (pre + j)),
          m'.fe (.obj zo zc), false⟩ ((2 * j + 1) • P)) ∧
      ∀ o c, ¬ (o ∈ [d, ai, dge] ∨ (pre ≤ o ∧ o < pre + k) ∨ (zr ≤ o ∧ o < zr + k)) →
        FePtr.obj o c ≠ .obj zo zc → m'.fe (.obj o c) = m.fe (.obj o c) ∧ m'.inf o = m.inf o :=
  (oddTableM_pt k pre zr zo zc a d ai dge hn hk hpz hout hd hz m hP.limb hP.2.2.2 h0).mono
    fun _ ⟨h1, h2⟩ => ⟨fun j hj => by
      obtain ⟨e, B, l, r⟩ := h1 j hj
      exact ⟨e, l.ok32 r⟩, h2⟩

/-- Conversion of whole arrays, with any number of points at infinity anywhere in the second. -/
theorem C78_set_all_points (r a : ℕ) (Ps : List Pt) (hd : r + Ps.length ≤ a ∨ a + Ps.length ≤ r) {m : Mem Fe5}
    (hm : ∀ j (h : j < Ps.length), GejOk (m.gej (a + j)) Ps[j]) :
    ((∀ P ∈ Ps, P ≠ 0) → Ends (geSetAllGejM r a Ps.length m) fun m' =>
      (∀ j (h : j < Ps.length), GeOk (m'.ge (r + j)) Ps[j]) ∧ SameOut r Ps.length m m') ∧
    Ends (geSetAllGejVarM r a Ps.length m) fun m' =>
      (∀ j (h : j < Ps.length), GeOk (m'.ge (r + j)) Ps[j]) ∧ SameOut r Ps.length m m' := by
  let val : Gej Fe5 → Gej Fp := fun g => ⟨(g.x.nat : Fp), (g.y.nat : Fp), (g.z.nat : Fp), g.infinity⟩
  have hl : List.Forall₂ GejLimb (m.gejs a Ps.length) ((m.gejs a Ps.length).map val) := by
    rw [List.forall₂_iff_get]
    refine ⟨by simp, fun i h1 h2 => ?_⟩
    simp only [Mem.gejs, List.get_eq_getElem, List.getElem_map, List.getElem_range', one_mul]
    exact (hm i (by simpa [Mem.gejs] using h1)).limb
  have hr : List.Forall₂ (GejRep 7) ((m.gejs a Ps.length).map val) Ps := by
    rw [List.forall₂_iff_get]
    refine ⟨by simp [Mem.gejs], fun i h1 h2 => ?_⟩
    simp only [Mem.gejs, List.get_eq_getElem, List.getElem_map, List.getElem_range', one_mul]
    exact (hm i h2).2.2.2
  have fin : ∀ {m' : Mem Fe5} {L : List (Ge Fp)}, List.Forall₂ GeLimb (m'.ges r Ps.length) L →
      List.Forall₂ (GeRep 7) L Ps → ∀ j (h : j < Ps.length), GeOk (m'.ge (r + j)) Ps[j] := by
    intro m' L h1 h2 j hj
    have l1 := h1.length_eq
    have l2 := h2.length_eq
    have a1 := h1.get (i := j) (by simpa [Mem.ges] using hj) (by omega)
    have a2 := h2.get (i := j) (by omega) hj
    simp only [Mem.ges, List.get_eq_getElem, List.getElem_map, List.getElem_range', one_mul] at a1 a2
    exact a1.ok a2
  constructor
  · intro h0
    exact (geSetAllGejM_ok r a _ hd m).mono fun m' ⟨e, s⟩ =>
      ⟨fin (e ▸ geSetAllGej_limb safegcdInv_ok hl) (C41_set_all_gej hr h0), s⟩
  · exact (geSetAllGejVarM_ok r a _ hd m).mono fun m' ⟨e, s⟩ =>
      ⟨fin (e ▸ geSetAllGejVar_limb safegcdInv_ok hl) (C41_set_all_gej_var hr), s⟩

theorem C78_set_all_points_32 (r a : ℕ) (Ps : List Pt) (hd : r + Ps.length ≤ a ∨ a + Ps.length ≤ r)
    {m : Mem Fe10}
    (hm : ∀ j (h : j < Ps.length), GejOk32 (m.gej (a + j)) Ps[j]) :
    ((∀ P ∈ Ps, P ≠ 0) → Ends (geSetAllGejM r a Ps.length m) fun m' =>
      (∀ j (h : j < Ps.length), GeOk32 (m'.ge (r + j)) Ps[j]) ∧ SameOut r Ps.length m m') ∧
    Ends (geSetAllGejVarM r a Ps.length m) fun m' =>
      (∀ j (h : j < Ps.length), GeOk32 (m'.ge (r + j)) Ps[j]) ∧ SameOut r Ps.length m m' := by
  let val : Gej Fe10 → Gej Fp := fun g => ⟨(g.x.nat : Fp), (g.y.nat : Fp), (g.z.nat : Fp), g.infinity⟩
  have hl : List.Forall₂ GejLimb (m.gejs a Ps.length) ((m.gejs a Ps.length).map val) := by
    rw [List.forall₂_iff_get]
    refine ⟨by simp, fun i h1 h2 => ?_⟩
    simp only [Mem.gejs, List.get_eq_getElem, List.getElem_map, List.getElem_range', one_mul]
    exact (hm i (by simpa [Mem.gejs] using h1)).limb
  have hr : List.Forall₂ (GejRep 7) ((m.gejs a Ps.length).map val) Ps := by
    rw [List.forall₂_iff_get]
    refine ⟨by simp [Mem.gejs], fun i h1 h2 => ?_⟩
    simp only [Mem.gejs, List.get_eq_getElem, List.getElem_map, List.getElem_range', one_mul]
    exact (hm i h2).2.2.2
  have fin : ∀ {m' : Mem Fe10} {L : List (Ge Fp)}, List.Forall₂ GeLimb (m'.ges r Ps.length) L →
      List.Forall₂ (GeRep 7) L Ps → ∀ j (h : j < Ps.length), GeOk32 (m'.ge (r + j)) Ps[j] := by
    intro m' L h1 h2 j hj
    have l1 := h1.length_eq
    have l2 := h2.length_eq
    have a1 := h1.get (i := j) (by simpa [Mem.ges] using hj) (by omega)
    have a2 := h2.get (i := j) (by omega) hj
    simp only [Mem.ges, List.get_eq_getElem, List.getElem_map, List.getElem_range', one_mul] at a1 a2
    exact a1.ok32 a2
  constructor
  · intro h0
    exact (geSetAllGejM_ok r a _ hd m).mono fun m' ⟨e, s⟩ =>
      ⟨fin (e ▸ geSetAllGej_limb safegcdInv32_ok hl) (C41_set_all_gej hr h0), s⟩
  · exact (geSetAllGejVarM_ok r a _ hd m).mono fun m' ⟨e, s⟩ =>
      ⟨fin (e ▸ geSetAllGejVar_limb safegcdInv32_ok hl) (C41_set_all_gej_var hr), s⟩

/-! ### Concrete cases -/

/-- A memory in which every object holds the generator. -/
def memG : Mem Fe5 := ⟨fun q => match q with
  | .obj _ .x => (geConstG : Ge Fe5).x
  | .obj _ .y => (geConstG : Ge Fe5).y
  | .obj _ .z => setInt 1
  | .loc _ => setInt 0, fun _ => false⟩

theorem memG_gej (o : ℕ) : GejOk (memG.gej o) G := C58_set_ge geConstG_ok

theorem memG_ge (o : ℕ) : GeOk (memG.ge o) G := geConstG_ok

/-- Objects below 10 are Jacobian.  `P0 = 2 P0; P0 = P0 + P1; P0 = P0 + A10; P0 = -P0; P1 = P0 + P0` with
all the outputs among the inputs: `P1` is `-8 G`. -/
example : Ends (run ([MOp.double 0 0, .addVar 0 0 1, .addGeVar 0 0 10, .gejNeg 0 0, .addVar 1 0 0].map
    MOp.stmt) memG) fun m' => GejOk (m'.gej 1) (-(8 • G)) ∧ GejOk (m'.gej 0) (-(4 • G)) := by
  refine (C78_program (· < 10) [MOp.double 0 0, .addVar 0 0 1, .addGeVar 0 0 10, .gejNeg 0 0, .addVar 1 0 0]
    (S := fun _ => G) (fun o => ⟨fun _ => memG_gej o, fun _ => memG_ge o⟩) ?_ ?_).mono fun m' h => ?_
  · simp [MOp.Typed]
  · simp [Pres, MOp.Pre]
  · have h1 := (h 1).1 (by norm_num)
    have h0 := (h 0).1 (by norm_num)
    simp [MOp.points, Function.update] at h1 h0
    constructor
    · convert h1 using 1; abel
    · convert h0 using 1; abel

/-- The conversion to affine coordinates, then the affine point added to what `*a` has become. -/
example : Ends (run ([MOp.double 0 1, .setGej 10 0, .addGe 0 0 10].map MOp.stmt) memG)
    fun m' => GejOk (m'.gej 0) (4 • G) ∧ GeOk (m'.ge 10) (2 • G) := by
  refine (C78_program (· < 10) [MOp.double 0 1, .setGej 10 0, .addGe 0 0 10]
    (S := fun _ => G) (fun o => ⟨fun _ => memG_gej o, fun _ => memG_ge o⟩) ?_ ?_).mono fun m' h => ?_
  · simp [MOp.Typed]
  · simp only [Pres, MOp.Pre, MOp.points, Function.update_self, Function.update_of_ne, true_and, and_true]
    rw [← two_nsmul]
    exact odd_smul_ne_zero G_ne_zero (by decide +kernel) (by norm_num)
  · have h1 := (h 10).2 (by norm_num)
    have h0 := (h 0).1 (by norm_num)
    simp [MOp.points, Function.update] at h1 h0
    constructor
    · convert h0 using 1; abel
    · convert h1 using 1; abel

/-- The table of the eight odd multiples of the generator. -/
example : Ends (run [oddMultiplesTableM 8 100 200 (.obj 4 .z) 0 1 2 3, tableSetGlobalzM 8 100 200] memG)
    fun m' => GejOk ⟨m'.fe (px 107), m'.fe (py 107), m'.fe (pz 4), false⟩ (15 • G) :=
  (C78_odd_multiples 8 100 200 4 .z 0 1 2 3 (by norm_num) (by decide +kernel) (by norm_num)
    (by intro o ho; simp only [List.mem_cons, List.not_mem_nil, or_false] at ho; omega) (by decide) (by decide)
    (memG_gej 0) G_ne_zero).mono fun _ h => (h.1 7 (by norm_num)).2

/-- Three points to affine coordinates. -/
example : Ends (geSetAllGejVarM 10 0 3 memG) fun m' => GeOk (m'.ge 12) G :=
  (C78_set_all_points 10 0 [G, G, G] (by simp) (m := memG) (fun j hj => by
    have : [G, G, G][j] = G := by
      have : j < 3 := hj
      interval_cases j <;> rfl
    rw [this]; exact memG_gej _)).2.mono fun _ h => h.1 2 (by simp)

end Secp
