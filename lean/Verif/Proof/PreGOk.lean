import Verif.Model.Ecmult
import Verif.Proof.Order

/-!
# The static tables contain the odd multiples of `G` and of `2^128 G`

Each entry is checked, by kernel computation, to be its predecessor plus `2G` (resp. `2^129 G`).
-/

namespace Secp
open Model FeOps WeierstrassCurve

/-- Division-free test that `r = q + d` for affine points with different `x`. -/
def addOk (q d r : Nat × Nat) : Bool :=
  let h := (p + d.1 - q.1) % p
  let s := (p + d.2 - q.2) % p
  Nat.ble (q.1 + 1) p && Nat.ble (q.2 + 1) p && Nat.ble 1 h &&
    Nat.beq ((r.1 + q.1 + d.1) * (h * h % p) % p) (s * s % p) &&
    Nat.beq ((r.2 + q.2) * h % p) (s * (p + q.1 - r.1) % p) && Nat.ble (r.1 + 1) p

/-- The entry as a point. -/
def Entry (q : Nat × Nat) (P : Pt) : Prop := GeRep 7 (geFromStorage q) P

theorem addOk_entry {q d r : Nat × Nat} {P D : Pt} (h : addOk q d r = true) (hq : Entry q P)
    (hd : Entry d D) : Entry r (P + D) := by
  obtain ⟨qx, qy⟩ := q
  obtain ⟨dx, dy⟩ := d
  obtain ⟨rx, ry⟩ := r
  unfold addOk at h
  simp only [Bool.and_eq_true, Nat.ble_eq, Nat.beq_eq] at h
  obtain ⟨⟨⟨⟨⟨h1, h2⟩, h3⟩, h4⟩, h5⟩, h6⟩ := h
  obtain ⟨hnq, rfl⟩ := hq.elim rfl
  obtain ⟨hnd, rfl⟩ := hd.elim rfl
  have ch : (((p + dx - qx) % p : ℕ) : Fp) = (dx : Fp) - qx := by
    rw [cast_mod_p, Nat.cast_sub (by omega), Nat.cast_add, ZMod.natCast_self, zero_add]
  have cs : (((p + dy - qy) % p : ℕ) : Fp) = (dy : Fp) - qy := by
    rw [cast_mod_p, Nat.cast_sub (by omega), Nat.cast_add, ZMod.natCast_self, zero_add]
  have hne : (dx : Fp) - qx ≠ 0 := by
    rw [← ch, Ne, ZMod.natCast_eq_zero_iff]
    exact Nat.not_dvd_of_pos_of_lt h3 (Nat.mod_lt _ p_pos)
  have e4 : ((rx : Fp) + qx + dx) * (((dx : Fp) - qx) * ((dx : Fp) - qx)) =
      ((dy : Fp) - qy) * ((dy : Fp) - qy) := by
    have := congrArg (Nat.cast : ℕ → Fp) h4
    rw [cast_mod_p, cast_mod_p, Nat.cast_mul, cast_mod_p] at this
    simpa only [Nat.cast_add, Nat.cast_mul, ch, cs] using this
  have e5 : ((ry : Fp) + qy) * ((dx : Fp) - qx) = ((dy : Fp) - qy) * ((qx : Fp) - rx) := by
    have := congrArg (Nat.cast : ℕ → Fp) h5
    rw [cast_mod_p, cast_mod_p, Nat.cast_mul, Nat.cast_mul, Nat.cast_sub (by omega)] at this
    simpa only [Nat.cast_add, Nat.cast_mul, ch, cs, ZMod.natCast_self, zero_add] using this
  have hx : (qx : Fp) ≠ dx := fun e => hne (by rw [e, sub_self])
  have hne' : (qx : Fp) - dx ≠ 0 := sub_ne_zero.2 hx
  have ex : (rx : Fp) = (((qy : Fp) - dy) / (qx - dx)) ^ 2 - qx - dx := by
    field_simp
    linear_combination e4
  have ey : (ry : Fp) = -(((qy : Fp) - dy) / (qx - dx) * (rx - qx) + qy) := by
    field_simp
    linear_combination -e5
  obtain ⟨hn, e⟩ := add_some_X_ne (b := (7 : Fp)) (h₁ := hnq) (h₂ := hnd) hx ex ey
  rw [e]
  exact GeRep.intro rfl rfl rfl

/-- Test that a list continues the progression `q, q + d, …`; returns its last entry. -/
def seqOk (d : Nat × Nat) : Nat × Nat → List (Nat × Nat) → Option (Nat × Nat)
  | q, [] => some q
  | q, r :: rest => match addOk q d r with
    | true => seqOk d r rest
    | false => none

/-- The same for a list of lists of 64 entries. -/
def seqsOk (d : Nat × Nat) : Nat × Nat → List (List (Nat × Nat)) → Option (Nat × Nat)
  | q, [] => some q
  | q, l :: rest => match Nat.beq l.length 64, seqOk d q l with
    | true, some q' => seqsOk d q' rest
    | _, _ => none

theorem seqOk_entry {d : Nat × Nat} {D : Pt} (hd : Entry d D) (l : List (Nat × Nat)) :
    ∀ (q : Nat × Nat) (P : Pt) (q' : Nat × Nat), Entry q P → seqOk d q l = some q' →
      Entry q' (P + l.length • D) ∧
        ∀ i, i < l.length → Entry (l.getD i (0, 0)) (P + (i + 1) • D) := by
  induction l with
  | nil =>
    intro q P q' hq h
    simp only [seqOk, Option.some.injEq] at h
    subst h
    simpa using hq
  | cons r rest ih =>
    intro q P q' hq h
    simp only [seqOk] at h
    split at h
    · rename_i hr
      have hE := addOk_entry hr hq hd
      obtain ⟨h1, h2⟩ := ih r (P + D) q' hE h
      refine ⟨?_, ?_⟩
      · rw [List.length_cons, add_smul, one_smul, add_comm (_ • D), ← add_assoc]; exact h1
      · intro i hi
        cases i with
        | zero => simpa using hE
        | succ i =>
          have := h2 i (by simpa using hi)
          rw [List.getD_cons_succ, add_smul _ 1, one_smul, add_comm (_ • D), ← add_assoc]
          exact this
    · exact absurd h (by simp)

theorem seqsOk_entry {d : Nat × Nat} {D : Pt} (hd : Entry d D) (ll : List (List (Nat × Nat))) :
    ∀ (q : Nat × Nat) (P : Pt) (q' : Nat × Nat), Entry q P → seqsOk d q ll = some q' →
      ∀ i, i < 64 * ll.length →
        Entry ((ll.getD (i / 64) []).getD (i % 64) (0, 0)) (P + (i + 1) • D) := by
  induction ll with
  | nil => intro q P q' _ _ i hi; simp at hi
  | cons l rest ih =>
    intro q P q' hq h i hi
    simp only [seqsOk] at h
    split at h
    · rename_i q1 hl h1
      rw [Nat.beq_eq] at hl
      obtain ⟨a1, a2⟩ := seqOk_entry hd l q P q1 hq h1
      by_cases hlt : i < 64
      · have := a2 i (by omega)
        rw [Nat.div_eq_of_lt hlt, Nat.mod_eq_of_lt hlt]
        exact this
      · have := ih q1 _ q' a1 h (i - 64) (by simp only [List.length_cons] at hi; omega)
        rw [show i / 64 = (i - 64) / 64 + 1 by omega, show i % 64 = (i - 64) % 64 by omega,
          List.getD_cons_succ]
        rw [add_assoc, ← add_smul, hl] at this
        rw [show i + 1 = 64 + (i - 64 + 1) by omega]
        exact this
    · exact absurd h (by simp)

/-- Affine coordinates `q` of the Jacobian point computed by the kernel. -/
def sameAffine (g : Gej Nat) (q : Nat × Nat) : Bool :=
  !g.infinity && Nat.beq (q.1 * (g.z * g.z % p) % p) (g.x % p) &&
    Nat.beq (q.2 * (g.z * g.z % p * g.z % p) % p) (g.y % p)

theorem sameAffine_entry {g : Gej Nat} {q : Nat × Nat} {P : Pt} (hg : GejRep 7 (castGej g) P)
    (h : sameAffine g q = true) : Entry q P := by
  obtain ⟨qx, qy⟩ := q
  unfold sameAffine at h
  simp only [Bool.and_eq_true, Nat.beq_eq, Bool.not_eq_true'] at h
  obtain ⟨⟨h0, h1⟩, h2⟩ := h
  obtain ⟨x, y, hn, hz, hx, hy, rfl⟩ := hg.elim (by simpa [castGej] using h0)
  simp only [castGej] at hz hx hy
  have e1 := congrArg (Nat.cast : ℕ → Fp) h1
  have e2 := congrArg (Nat.cast : ℕ → Fp) h2
  simp only [cast_mod_p, Nat.cast_mul] at e1 e2
  apply GeRep.intro rfl
  · simp only [geFromStorage]
    have : ((qx : Fp) - x) * (g.z : Fp) ^ 2 = 0 := by linear_combination e1 + hx
    exact sub_eq_zero.1 ((mul_eq_zero.1 this).resolve_right (pow_ne_zero _ hz))
  · simp only [geFromStorage]
    have : ((qy : Fp) - y) * (g.z : Fp) ^ 3 = 0 := by linear_combination e2 + hy
    exact sub_eq_zero.1 ((mul_eq_zero.1 this).resolve_right (pow_ne_zero _ hz))

/-- Affine coordinates of `2G`. -/
def twoG : Nat × Nat := (0xc6047f9441ed7d6d3045406e95c07cd85c778e4b8cef3ca7abac09b95c709ee5, 0x1ae168fea63dc339a3c58419466ceaeef7f632653266d0e1236431a950cfe52a)
/-- Affine coordinates of `2^129 G`. -/
def twoG128 : Nat × Nat := (0x4d49aefd784e8158fcafebe77fd9af59d89858ade7627eaee6847df84cf27076, 0xcd32fc59a10dd135e723f210359ca6f06e0f2d1a7df4d8466b90b66203aa781e)

theorem natMul_entry (k : ℕ) (q : Nat × Nat) (hk : k < 2 ^ 256)
    (h : sameAffine (natMul natG k 256 natInf) q = true) : Entry q (k • G) :=
  sameAffine_entry (natMulG_rep k hk) h


theorem twoG_entry : Entry twoG (2 • G) := natMul_entry 2 _ (by decide) (by decide +kernel)
theorem twoG128_entry : Entry twoG128 (2 ^ 129 • G) :=
  natMul_entry (2 ^ 129) _ (by decide) (by decide +kernel)

/-- `-G` -/
def negG : Nat × Nat := (gx, p - gy)
/-- `-2^128 G` -/
def negG128 : Nat × Nat := (0x8f68b9d2f63b5f339239c1ad981f162ee88c5678723ea3351b7b444c9ec4c0da, 0x99d560d245f9c67921e26f3d4941dea24415d3016aaef4020dc34085afdffcad)

theorem negG_entry : Entry negG (-G) := by
  have : Entry negG ((n - 1) • G) := natMul_entry (n - 1) _ (by decide +kernel) (by decide +kernel)
  have e : (n - 1) • G = -G := by
    rw [eq_neg_iff_add_eq_zero]
    have : (n - 1) • G + 1 • G = 0 := by
      rw [← add_smul, show n - 1 + 1 = n from Nat.sub_add_cancel n_pos, n_smul_G]
    simpa using this
  rwa [e] at this

theorem negG128_entry : Entry negG128 (-(2 ^ 128 • G)) := by
  have : Entry negG128 ((n - 2 ^ 128) • G) :=
    natMul_entry (n - 2 ^ 128) _ (by decide +kernel) (by decide +kernel)
  have e : (n - 2 ^ 128) • G = -(2 ^ 128 • G) := by
    rw [eq_neg_iff_add_eq_zero, ← add_smul,
      show n - 2 ^ 128 + 2 ^ 128 = n from Nat.sub_add_cancel (by decide +kernel), n_smul_G]
  rwa [e] at this

theorem odd_step (X : Pt) (i : ℕ) : -X + (i + 1) • ((2 : ℕ) • X) = (2 * i + 1) • X := by
  rw [← mul_smul, neg_add_eq_iff_eq_add, ← succ_nsmul']; congr 1; omega

def seqsOkB (d q : Nat × Nat) (ll : List (List (Nat × Nat))) : Bool :=
  Nat.beq ll.length 128 && (seqsOk d q ll).isSome

theorem preGData_ok : seqsOkB twoG negG preGData = true := by decide +kernel
theorem preG128Data_ok : seqsOkB twoG128 negG128 preG128Data = true := by decide +kernel

/-- `secp256k1_pre_g[i] = (2i+1)·G` for every index of the table. -/
theorem preG_entry (i : ℕ) (hi : i < 8192) : Entry (preG i) ((2 * i + 1) • G) := by
  have h := preGData_ok
  unfold seqsOkB at h
  rw [Bool.and_eq_true, Nat.beq_eq, Option.isSome_iff_exists] at h
  obtain ⟨hl, q', h⟩ := h
  have := seqsOk_entry twoG_entry _ _ _ _ negG_entry h i (by omega)
  unfold preG
  rwa [odd_step] at this

/-- `secp256k1_pre_g_128[i] = (2i+1)·2^128·G` for every index of the table. -/
theorem preG128_entry (i : ℕ) (hi : i < 8192) :
    Entry (preG128 i) ((2 * i + 1) • 2 ^ 128 • G) := by
  have h := preG128Data_ok
  unfold seqsOkB at h
  rw [Bool.and_eq_true, Nat.beq_eq, Option.isSome_iff_exists] at h
  obtain ⟨hl, q', h⟩ := h
  have := seqsOk_entry twoG128_entry _ _ _ _ negG128_entry h i (by omega)
  unfold preG128
  have e : (2 ^ 129 : ℕ) • G = (2 : ℕ) • (2 ^ 128 : ℕ) • G := by
    rw [← mul_smul]; congr 1
  rw [e, odd_step] at this
  exact this

end Secp
