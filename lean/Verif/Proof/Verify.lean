import Verif.Spec.VerifyBuild
import Verif.Proof.MemRep

/-!
# The checks of a `VERIFY` build
-/

namespace Secp.Model.Verify
open Secp FeOps LimbRep

/-- What the checks need to know about a field implementation. -/
class VerifyRep (α : Type) [FeOps α] [FeMem α] [LimbRep α] [FeCheck α] [Bounds α] : Prop where
  rep : ∀ {a : α} {m : ℕ}, Bounds.Mag a m → ∃ v, Rep a m v
  mag : ∀ {a : α} {m : ℕ} {v : Fp}, Rep a m v → Bounds.Mag a m
  magCheck : ∀ {a : α} {m : ℕ}, Bounds.Mag a m → FeCheck.implVerify a m false = true
  normCheck : ∀ {a : α} (m : ℕ), Bounds.Norm a → FeCheck.implVerify a m true = true
  normMag : ∀ {a : α}, Bounds.Norm a → Bounds.Mag a 1
  normalize : ∀ {a : α}, Bounds.Mag a 31 → Bounds.Norm (FeOps.normalize a)
  weak : ∀ {a : α}, Bounds.Norm a → Bounds.Norm (FeOps.normalizeWeak a)
  setInt : ∀ {k : ℕ}, k ≤ 0x7FFF → Bounds.Norm (FeOps.setInt k : α)
  setInt0 : Bounds.Mag (FeOps.setInt 0 : α) 0
  const : ∀ {k : ℕ}, k < p → Bounds.Norm (FeOps.feConst k : α)
  inv : ∀ {a : α}, Bounds.Mag a 8 → Bounds.Norm (FeOps.inv a)
  inv0 : ∀ {a : α}, Bounds.Mag a 0 → Bounds.Mag (FeOps.inv a) 0
  invVar : ∀ {a : α}, Bounds.Mag a 8 → Bounds.Norm (FeOps.invVar a)
  invVar0 : ∀ {a : α}, Bounds.Mag a 0 → Bounds.Mag (FeOps.invVar a) 0
  invOk : LimbInvOk α
  isSquare : ∀ {a : α} {v : Fp}, Rep a 31 v → FeMem.isSquareVar a = feIsSquareVar v

section
variable {β γ : Type}

theorem Runs.bind {x : Option β} {Q : β → Prop} {k : β → Option γ} {R : γ → Prop} (h : Runs x Q)
    (hk : ∀ r, Q r → Runs (k r) R) : Runs (x >>= k) R := by
  obtain ⟨r, rfl, hq⟩ := h
  exact hk r hq

theorem Runs.check {b : Bool} {k : Unit → Option γ} {R : γ → Prop} (h : b = true) (hk : Runs (k ()) R) :
    Runs (Verify.check b >>= k) R := by
  subst h; exact hk

theorem Runs.some {r : β} {Q : β → Prop} (h : Q r) : Runs (some r) Q := ⟨r, rfl, h⟩

theorem Runs.mono {x : Option β} {Q R : β → Prop} (h : Runs x Q) (hk : ∀ r, Q r → R r) : Runs x R := by
  obtain ⟨r, e, hq⟩ := h
  exact ⟨r, e, hk r hq⟩

theorem Runs.map {x : Option β} {Q : β → Prop} {R : γ → Prop} (f : β → γ) (h : Runs x Q)
    (hk : ∀ r, Q r → R (f r)) : Runs (x.map f) R := by
  obtain ⟨r, rfl, hq⟩ := h
  exact ⟨_, rfl, hk r hq⟩
end

variable {α : Type} [FeOps α] [FeMem α] [LimbRep α] [FeCheck α] [Bounds α] [VerifyRep α]

/-- `r` is `f` with a magnitude of at most `m`. -/
structure FeIs (r : FeV α) (f : α) (m : ℕ) : Prop where
  fe : r.fe = f
  tr : Tracked r
  le : r.magnitude ≤ m

theorem VerifyRep.mono {a : α} {m k : ℕ} (h : Bounds.Mag a m) (hk : m ≤ k) : Bounds.Mag a k := by
  obtain ⟨v, hv⟩ := VerifyRep.rep h
  exact VerifyRep.mag (hv.mono hk)

theorem Tracked.verify {a : FeV α} (h : Tracked a) : a.verify = true := by
  unfold FeV.verify FeV.atMost
  have h1 := h.le
  cases hn : a.normalized
  · simp [h1, VerifyRep.magCheck h.mag]
  · obtain ⟨h2, h3⟩ := h.norm hn
    simp [h1, h2, VerifyRep.normCheck a.magnitude h3]

variable {a b : FeV α} {f g : α} {m k : ℕ} {Q : FeV α → Prop}

omit [VerifyRep α] in
theorem FeIs.mono (h : FeIs a f m) (hk : m ≤ k) : FeIs a f k := ⟨h.fe, h.tr, h.le.trans hk⟩

theorem FeIs.rep (h : FeIs a f m) : ∃ v, Rep f m v := by
  obtain ⟨v, hv⟩ := VerifyRep.rep (h.fe ▸ h.tr.mag)
  exact ⟨v, hv.mono h.le⟩

theorem ret_ok {r : FeV α} (h : Tracked r) (hm : r.magnitude ≤ m) : Runs (ret r) (FeIs · r.fe m) :=
  Runs.check h.verify (Runs.some ⟨rfl, h, hm⟩)

/-- A result that is not flagged as normalized. -/
theorem ret_rep {f : α} {m : ℕ} {v : Fp} (h : Rep f m v) (hm : m ≤ 32) : Runs (ret ⟨f, m, false⟩) (FeIs · f m) :=
  ret_ok (r := ⟨f, m, false⟩) ⟨hm, VerifyRep.mag h, fun h => by cases h⟩ le_rfl

omit [VerifyRep α] [FeCheck α] in
theorem atMost_ok (h : FeIs a f m) (hm : m ≤ k) (hk : k ≤ 32) : a.atMost k = true := by
  have := h.le
  simp only [FeV.atMost, Bool.and_eq_true, decide_eq_true_eq]
  omega

theorem feMul_ok (ha : FeIs a f m) (hb : FeIs b g k) (hm : m ≤ 8 := by omega) (hk : k ≤ 8 := by omega) :
    Runs (feMul a b) (FeIs · (mul f g) 1) := by
  obtain ⟨v, hv⟩ := ha.rep
  obtain ⟨w, hw⟩ := hb.rep
  have := hv.mul' hw
  unfold feMul
  rw [ha.fe, hb.fe]
  exact Runs.check ha.tr.verify (Runs.check hb.tr.verify (Runs.check (atMost_ok ha hm (by omega))
    (Runs.check (atMost_ok hb hk (by omega)) (ret_rep this (by omega)))))

theorem feSqr_ok (ha : FeIs a f m) (hm : m ≤ 8 := by omega) : Runs (feSqr a) (FeIs · (sqr f) 1) := by
  obtain ⟨v, hv⟩ := ha.rep
  unfold feSqr
  rw [ha.fe]
  exact Runs.check ha.tr.verify (Runs.check (atMost_ok ha hm (by omega)) (ret_rep hv.sqr' (by omega)))

theorem feAdd_ok (ha : FeIs a f m) (hb : FeIs b g k) (hm : m + k ≤ 32 := by omega) :
    Runs (feAdd a b) (FeIs · (add f g) (m + k)) := by
  obtain ⟨v, hv⟩ := VerifyRep.rep (ha.fe ▸ ha.tr.mag)
  obtain ⟨w, hw⟩ := VerifyRep.rep (hb.fe ▸ hb.tr.mag)
  have l1 := ha.le
  have l2 := hb.le
  unfold feAdd
  rw [ha.fe, hb.fe]
  exact Runs.check ha.tr.verify (Runs.check hb.tr.verify (Runs.check (by simp; omega)
    ((ret_rep (hv.add' hw) (by omega)).mono fun r hr => hr.mono (by omega))))

theorem feNegate_ok (ha : FeIs a f m) (k : ℕ) (hm : m ≤ k := by omega) (hk : k ≤ 31 := by omega) :
    Runs (feNegate a k) (FeIs · (negate f k) (k + 1)) := by
  obtain ⟨v, hv⟩ := ha.rep
  unfold feNegate
  rw [ha.fe]
  exact Runs.check ha.tr.verify (Runs.check (by simp; omega) (Runs.check (atMost_ok ha hm (by omega))
    (ret_rep (hv.negate' k) (by omega))))

theorem feMulInt_ok (ha : FeIs a f m) (k : ℕ) (hm : m * k ≤ 32 := by omega) (hk : k ≤ 32 := by omega) :
    Runs (feMulInt a k) (FeIs · (mulInt f k) (m * k)) := by
  obtain ⟨v, hv⟩ := VerifyRep.rep (ha.fe ▸ ha.tr.mag)
  have l1 : a.magnitude * k ≤ m * k := Nat.mul_le_mul_right _ ha.le
  unfold feMulInt
  rw [ha.fe]
  exact Runs.check ha.tr.verify (Runs.check (by simp; omega) (Runs.check (by
      rw [Nat.mul_comm]; simp; omega)
    ((ret_rep (hv.mulInt' k (by omega)) (by omega)).mono fun r hr => hr.mono l1)))

theorem feAddInt_ok (ha : FeIs a f m) (k : ℕ) (hm : m ≤ 31 := by omega) (hk : k ≤ 0x7FFF := by decide) :
    Runs (feAddInt a k) (FeIs · (addInt f k) (m + 1)) := by
  obtain ⟨v, hv⟩ := VerifyRep.rep (ha.fe ▸ ha.tr.mag)
  have l1 := ha.le
  unfold feAddInt
  rw [ha.fe]
  exact Runs.check (by simp; omega) (Runs.check ha.tr.verify
    ((ret_rep (hv.addInt' k (by omega) hk) (by omega)).mono fun r hr => hr.mono (by omega)))

theorem feHalf_ok (ha : FeIs a f m) (hm : m ≤ 31 := by omega) :
    Runs (feHalf a) (FeIs · (half f) (m / 2 + 1)) := by
  obtain ⟨v, hv⟩ := VerifyRep.rep (ha.fe ▸ ha.tr.mag)
  have l1 := ha.le
  unfold feHalf
  rw [ha.fe, Nat.shiftRight_one]
  exact Runs.check ha.tr.verify (Runs.check (atMost_ok ha hm (by omega))
    ((ret_rep (hv.half' (by omega)) (by omega)).mono fun r hr => hr.mono (by omega)))

theorem feNormalizesToZero_ok (ha : FeIs a f m) : Runs (feNormalizesToZero a) (· = normalizesToZero f) := by
  unfold feNormalizesToZero
  rw [ha.fe]
  exact Runs.check ha.tr.verify (Runs.some rfl)

theorem feSetInt_ok (k : ℕ) (hk : k ≤ 0x7FFF := by decide) :
    Runs (feSetInt k : Option (FeV α)) (FeIs · (setInt k) (if k = 0 then 0 else 1)) := by
  unfold feSetInt
  refine Runs.check (by simpa using hk) (ret_ok (r := ⟨setInt k, if k = 0 then 0 else 1, true⟩) ⟨?_, ?_, fun _ => ⟨?_, VerifyRep.setInt hk⟩⟩ le_rfl)
  · dsimp only; split <;> omega
  · dsimp only
    split
    · next h => subst h; exact VerifyRep.setInt0
    · exact VerifyRep.normMag (VerifyRep.setInt hk)
  · dsimp only; split <;> omega

theorem feNormalizeWeak_ok (ha : FeIs a f m) (hm : m ≤ 31 := by omega) :
    Runs (feNormalizeWeak a) (FeIs · (normalizeWeak f) 1) := by
  obtain ⟨v, hv⟩ := ha.rep
  unfold feNormalizeWeak
  refine Runs.check ha.tr.verify ?_
  have := ret_ok (r := ⟨normalizeWeak a.fe, 1, a.normalized⟩) (m := 1)
    ⟨by show 1 ≤ 32; decide, by rw [ha.fe]; exact VerifyRep.mag hv.weak, fun h => ⟨le_rfl, VerifyRep.weak (ha.tr.norm h).2⟩⟩ le_rfl
  simpa only [ha.fe] using this

theorem feNormalize_ok (ha : FeIs a f m) (hm : m ≤ 31 := by omega) :
    Runs (feNormalize a) fun r => FeIs r (normalize f) 1 ∧ r.normalized = true := by
  have hn : Bounds.Norm (normalize f) := VerifyRep.normalize (VerifyRep.mono (ha.fe ▸ ha.tr.mag) (ha.le.trans hm))
  unfold feNormalize
  rw [ha.fe]
  have ht : Tracked (⟨normalize f, 1, true⟩   : FeV α) := ⟨by show 1 ≤ 32; decide, VerifyRep.normMag hn, fun _ => ⟨le_rfl, hn⟩⟩
  exact Runs.check ha.tr.verify (Runs.check ht.verify (Runs.some ⟨⟨rfl, ht, le_rfl⟩, rfl⟩))

theorem feCmov_ok (ha : FeIs a f m) (hb : FeIs b g k) (flag : Bool) :
    Runs (feCmov a b flag) (FeIs · (cmov f g flag) (max m k)) := by
  obtain ⟨v, hv⟩ := VerifyRep.rep (ha.fe ▸ ha.tr.mag)
  obtain ⟨w, hw⟩ := VerifyRep.rep (hb.fe ▸ hb.tr.mag)
  have l1 := ha.le
  have l2 := hb.le
  have g1 := ha.tr.le
  have g2 := hb.tr.le
  have e : cmov f g flag = if flag then g else f := LimbRep.cmov flag (hv.mono g1) (hw.mono g2)
  unfold feCmov
  rw [ha.fe, hb.fe]
  refine Runs.check hb.tr.verify (Runs.check ha.tr.verify (ret_ok (m := max m k)
    (r := ⟨cmov f g flag, if b.magnitude > a.magnitude then b.magnitude else a.magnitude,
      if !b.normalized then false else a.normalized⟩) ⟨?_, ?_, ?_⟩ ?_))
  · dsimp only; split <;> omega
  · dsimp only
    rw [e]
    cases flag
    · exact VerifyRep.mag (hv.mono (by split <;> omega))
    · exact VerifyRep.mag (hw.mono (by split <;> omega))
  · dsimp only
    intro h
    cases hn : b.normalized
    · rw [hn] at h; simp at h
    · rw [hn] at h
      simp only [Bool.not_true, Bool.false_eq_true, if_false] at h
      obtain ⟨q1, q2⟩ := ha.tr.norm h
      obtain ⟨q3, q4⟩ := hb.tr.norm hn
      refine ⟨by split <;> omega, ?_⟩
      rw [e]
      cases flag
      · rw [← ha.fe]; exact q2
      · rw [← hb.fe]; exact q4
  · dsimp only; split <;> omega

theorem inv_zero {v : Fp} : (FeOps.normalizesToZero (FeOps.inv v) : Bool) = FeOps.normalizesToZero v := by
  show decide (v⁻¹ = 0) = decide (v = 0)
  simp

theorem feInv_ok (ha : FeIs a f m) (hm : m ≤ 8 := by omega) :
    Runs (feInv a) fun r => FeIs r (inv f) 1 := by
  obtain ⟨v, hv⟩ := ha.rep
  have hm' : Bounds.Mag f a.magnitude := ha.fe ▸ ha.tr.mag
  have hn : Bounds.Norm (inv f) := VerifyRep.inv (VerifyRep.mono hm' (ha.le.trans hm))
  have ht : Tracked (⟨inv f, if a.magnitude > 0 then 1 else 0, true⟩ : FeV α) := by
    refine ⟨by dsimp only; split <;> omega, ?_, fun _ => ⟨by dsimp only; split <;> omega, hn⟩⟩
    dsimp only
    split
    · exact VerifyRep.normMag hn
    · exact VerifyRep.inv0 (by rwa [show a.magnitude = 0 by omega] at hm')
  have hi : FeIs (⟨inv f, if a.magnitude > 0 then 1 else 0, true⟩ : FeV α) (inv f) 1 :=
    ⟨rfl, ht, by dsimp only; split <;> omega⟩
  unfold feInv
  refine (feNormalizesToZero_ok ha).bind fun z hz => ?_
  rw [ha.fe]
  refine Runs.check ha.tr.verify ((feNormalizesToZero_ok hi).bind fun z' hz' => Runs.check ?_
    (Runs.check ht.verify (Runs.some hi)))
  rw [hz, hz', (VerifyRep.invOk.ok (hv.mono hm)).toZero, inv_zero, ← hv.toZero, beq_self_eq_true]

theorem feInvVar_ok (ha : FeIs a f m) (hm : m ≤ 8 := by omega) :
    Runs (feInvVar a) fun r => FeIs r (invVar f) 1 := by
  obtain ⟨v, hv⟩ := ha.rep
  have hm' : Bounds.Mag f a.magnitude := ha.fe ▸ ha.tr.mag
  have hn : Bounds.Norm (invVar f) := VerifyRep.invVar (VerifyRep.mono hm' (ha.le.trans hm))
  have ht : Tracked (⟨invVar f, if a.magnitude > 0 then 1 else 0, true⟩ : FeV α) := by
    refine ⟨by dsimp only; split <;> omega, ?_, fun _ => ⟨by dsimp only; split <;> omega, hn⟩⟩
    dsimp only
    split
    · exact VerifyRep.normMag hn
    · exact VerifyRep.invVar0 (by rwa [show a.magnitude = 0 by omega] at hm')
  have hi : FeIs (⟨invVar f, if a.magnitude > 0 then 1 else 0, true⟩ : FeV α) (invVar f) 1 :=
    ⟨rfl, ht, by dsimp only; split <;> omega⟩
  unfold feInvVar
  refine (feNormalizesToZero_ok ha).bind fun z hz => ?_
  rw [ha.fe]
  refine Runs.check ha.tr.verify ((feNormalizesToZero_ok hi).bind fun z' hz' => Runs.check ?_
    (Runs.check ht.verify (Runs.some hi)))
  rw [hz, hz', (VerifyRep.invOk.okVar (hv.mono hm)).toZero]
  show (FeOps.normalizesToZero (FeOps.inv v) == _) = true
  rw [inv_zero, ← hv.toZero, beq_self_eq_true]

theorem feEqual_ok (ha : FeIs a f m) (hb : FeIs b g k) (hm : m ≤ 1 := by omega) (hk : k ≤ 30 := by omega) :
    Runs (feEqual a b) (· = equal f g) := by
  unfold feEqual
  refine Runs.check ha.tr.verify (Runs.check hb.tr.verify (Runs.check (atMost_ok ha hm (by omega))
    (Runs.check (atMost_ok hb (by omega) (by omega)) ((feNegate_ok ha 1).bind fun na hn =>
      (feAdd_ok hn hb).bind fun r hr => ?_))))
  exact feNormalizesToZero_ok hr

theorem feSqrN_ok (ha : FeIs a f 1) : ∀ k, Runs (feSqrN a k) (FeIs · (sqrN f k) 1)
  | 0 => Runs.some ha
  | k + 1 => (feSqrN_ok ha k).bind fun _ hx => feSqr_ok hx

end Secp.Model.Verify
