import Verif.Proof.EcdsaSign

/-! # Recovery -/

namespace Secp
open WeierstrassCurve Model Spec

theorem recoverableSave_eq (r s : Fn) (v : ℕ) : recoverableSave r s v = recObject r s v := rfl

theorem recoverableLoad_obj (r s : Fn) {v : ℕ} (hv : v < 4) :
    recoverableLoad (recObject r s v) = (r, s, v) := by
  have h1 : (recObject r s v).take 32 = leBytes 32 r.val := by
    rw [recObject, List.take_append_of_le_length (by rw [sigObject_length]; omega), take_sigObject]
  have h2 : (recObject r s v).drop 32 = leBytes 32 s.val ++ [UInt8.ofNat v] := by
    rw [recObject, List.drop_append_of_le_length (by rw [sigObject_length]; omega), drop_sigObject]
  have h3 : (recObject r s v).getD 64 0 = UInt8.ofNat v := by
    rw [recObject, List.getD_eq_getElem?_getD, List.getElem?_append_right (by rw [sigObject_length]),
      sigObject_length]
    rfl
  have h4 : (UInt8.ofNat v).toNat = v := by
    rw [UInt8.toNat_ofNat']; omega
  rw [recoverableLoad, h1, h2, h3, List.take_left' (by simp [leBytes_length]), leNat_fn, leNat_fn, h4,
    ZMod.natCast_zmod_val, ZMod.natCast_zmod_val]

theorem recoverX_eq (r : Fn) {v : ℕ} (hv : v < 4) :
    let x := if 2 ≤ v then r.val + n else r.val
    (x < p → recoverX r v = some ((x : ℕ) : Fp)) ∧ (¬ x < p → recoverX r v = none) := by
  have hb : v &&& 2 ≠ 0 ↔ 2 ≤ v := by interval_cases v <;> decide
  intro x
  have hp := n_lt_p
  have hr := ZMod.val_lt r
  unfold recoverX
  simp only [fe_of_scalar]
  by_cases h : 2 ≤ v
  · have hx : x = r.val + n := if_pos h
    rw [if_pos (hb.2 h), hx]
    by_cases hc : feCmpVar ((r.val : ℕ) : Fp) ecdsaPMinusOrder ≥ 0
    · rw [if_pos hc]
      rw [feCmp_ge] at hc
      exact ⟨fun h => by omega, fun _ => rfl⟩
    · rw [if_neg hc, ecdsaOrderAsFe_eq]
      rw [feCmp_ge] at hc
      exact ⟨fun _ => by rw [Nat.cast_add]; rfl, fun h => by omega⟩
  · have hx : x = r.val := if_neg h
    rw [if_neg (fun e => h (hb.1 e)), hx]
    exact ⟨fun _ => rfl, fun h => by omega⟩

theorem recoverOdd {v : ℕ} (hv : v < 4) : (decide (v &&& 1 ≠ 0)) = true ↔ v % 2 = 1 := by
  interval_cases v <;> decide

theorem recoveredKey_eq (R : Pt) (z r s : Fn) :
    recoveredKey R z r s = (r⁻¹ * s) • R + (-(r⁻¹ * z)) • G := by
  rw [recoveredKey, val_smul, val_smul, neg_smul, sub_eq_add_neg, div_eq_inv_mul, div_eq_inv_mul]

theorem sigRecover_some {r s z : Fn} {v : ℕ} (hv : v < 4) (hr : r ≠ 0) (hs : s ≠ 0) {R : Pt}
    (hR : RecoveryPoint r v R) (hK : recoveredKey R z r s ≠ 0) :
    ∃ q, ecdsaSigRecover r s z v = some q ∧ GeRep 7 q (recoveredKey R z r s) := by
  obtain ⟨h0, hx, hy⟩ := hR
  have hz : (scIsZero r || scIsZero s) = false := by
    rw [Bool.or_eq_false_iff, Bool.eq_false_iff, Bool.eq_false_iff]
    exact ⟨fun h => hr ((scIsZero_iff r).1 h), fun h => hs ((scIsZero_iff s).1 h)⟩
  have hX := (recoverX_eq r hv).1 (by rw [← hx]; exact ptX_lt R)
  rw [← hx] at hX
  have ho : ptY R % 2 = 1 ↔ (decide (v &&& 1 ≠ 0)) = true := by rw [recoverOdd hv, hy]
  obtain ⟨g1, g2⟩ := geSetXoVar_rep h0 ho
  have hq := ecmult_rep (gejSetGe_rep g2) (r⁻¹ * s) (some (-(r⁻¹ * z)))
  rw [Option.getD_some, ← recoveredKey_eq] at hq
  have hinf : (ecmult (gejSetGe (geSetXoVar ((ptX R : ℕ) : Fp) (decide (v &&& 1 ≠ 0))).1) (r⁻¹ * s)
      (some (-(r⁻¹ * z)))).infinity = false := by
    rw [Bool.eq_false_iff]
    exact fun h => hK (hq.inf_iff.1 h)
  refine ⟨_, ?_, geSetGej_rep hq⟩
  unfold ecdsaSigRecover
  rw [hz, if_neg (by simp), hX]
  simp only
  rw [g1, hinf]
  simp

theorem sigRecover_exists {r s z : Fn} {v : ℕ} (hv : v < 4) {q : Ge Fp}
    (h : ecdsaSigRecover r s z v = some q) :
    r ≠ 0 ∧ s ≠ 0 ∧ ∃ R, RecoveryPoint r v R ∧ recoveredKey R z r s ≠ 0 := by
  unfold ecdsaSigRecover at h
  cases hz : (scIsZero r || scIsZero s)
  · rw [hz, if_neg (by simp)] at h
    rw [Bool.or_eq_false_iff, Bool.eq_false_iff, Bool.eq_false_iff, Ne, Ne, scIsZero_iff,
      scIsZero_iff] at hz
    refine ⟨hz.1, hz.2, ?_⟩
    by_cases hlt : (if 2 ≤ v then r.val + n else r.val) < p
    · rw [(recoverX_eq r hv).1 hlt] at h
      simp only at h
      by_cases hset : (geSetXoVar (((if 2 ≤ v then r.val + n else r.val : ℕ)) : Fp)
          (decide (v &&& 1 ≠ 0))).2 = true
      · obtain ⟨R, hR0, hRx, hRy⟩ := geSetXoVar_exists hlt hset
        rw [recoverOdd hv] at hRy
        refine ⟨R, ⟨hR0, hRx, by omega⟩, ?_⟩
        have ho : ptY R % 2 = 1 ↔ (decide (v &&& 1 ≠ 0)) = true := by rw [recoverOdd hv, hRy]
        rw [← hRx] at h hset
        have hq := ecmult_rep (gejSetGe_rep (geSetXoVar_rep hR0 ho).2) (r⁻¹ * s) (some (-(r⁻¹ * z)))
        rw [Option.getD_some, ← recoveredKey_eq] at hq
        intro hK
        rw [if_neg (by rw [hset]; simp), hq.inf_iff.2 hK] at h
        simp at h
      · rw [if_pos (by simpa using hset)] at h
        cases h
    · rw [(recoverX_eq r hv).2 hlt] at h
      cases h
  · rw [hz, if_pos rfl] at h
    cases h

/-- Two points with the same recovery data are equal. -/
theorem recoveryPoint_unique {r : Fn} {v : ℕ} {R R' : Pt} (h : RecoveryPoint r v R)
    (h' : RecoveryPoint r v R') : R = R' := by
  obtain ⟨a, b, c⟩ := h
  obtain ⟨a', b', c'⟩ := h'
  have h1 := (geSetXoVar_rep a (odd := decide (v % 2 = 1)) (by simp [c])).2
  have h2 := (geSetXoVar_rep a' (odd := decide (v % 2 = 1)) (by simp [c'])).2
  rw [b] at h1
  rw [b'] at h2
  exact h1.unique h2

/-- The recovered key makes the signature valid. -/
theorem recovered_valid {r s z : Fn} {v : ℕ} (hr : r ≠ 0) (hs : s ≠ 0) {R : Pt}
    (hR : RecoveryPoint r v R) : EcdsaValid (recoveredKey R z r s) z r s := by
  have e : ecdsaPoint (recoveredKey R z r s) z r s = R := by
    rw [ecdsaPoint_eq, recoveredKey_eq, smul_add, smul_smul, smul_smul, add_assoc, ← add_smul]
    have e1 : s⁻¹ * r * (r⁻¹ * s) = 1 := by field_simp
    have e2 : s⁻¹ * r * -(r⁻¹ * z) + s⁻¹ * z = 0 := by field_simp; ring
    rw [e1, e2, one_smul, fn_zero_smul, add_zero]
  obtain ⟨h0, hx, -⟩ := hR
  refine ⟨hr, hs, by rw [e]; exact h0, ?_⟩
  rw [e, hx]
  split
  · rw [Nat.add_mod_right, Nat.mod_eq_of_lt (ZMod.val_lt r)]
  · rw [Nat.mod_eq_of_lt (ZMod.val_lt r)]

/-- The data that signing writes names the point `±kG`, and recovery gives back the key. -/
theorem signed_recovery {d z k : Fn} (hk : k ≠ 0) (hr : ecdsaR k ≠ 0) :
    ecdsaRecid d z k < 4 ∧ ∃ R, RecoveryPoint (ecdsaR k) (ecdsaRecid d z k) R ∧
      recoveredKey R z (ecdsaR k) (lowS (ecdsaS d z k)) = d • G := by
  have hkG : k.val • G ≠ 0 := by rw [val_smul]; exact smul_G_ne hk
  have hX := ptX_lt (k.val • G)
  have hn := n_lt_p
  have h2n := p_lt_2n
  have hy2 : ptY (k.val • G) % 2 < 2 := Nat.mod_lt _ (by norm_num)
  have hrv : (ecdsaR k).val = ptX (k.val • G) % n := by rw [ecdsaR, ZMod.val_natCast]
  have hrx : ptX (k.val • G) = if n ≤ ptX (k.val • G) then (ecdsaR k).val + n else (ecdsaR k).val := by
    rw [hrv]
    split
    · rename_i h
      rw [Nat.mod_eq_sub_mod h, Nat.mod_eq_of_lt (by omega)]; omega
    · rename_i h
      rw [Nat.mod_eq_of_lt (by omega)]
  have hsk : ecdsaS d z k * k = z + ecdsaR k * d := by rw [ecdsaS, div_mul_cancel₀ _ hk]
  have hkey : (((ecdsaR k)⁻¹ * ecdsaS d z k) • (k • G) + (-((ecdsaR k)⁻¹ * z)) • G) = d • G := by
    rw [smul_smul, ← add_smul]
    congr 1
    rw [mul_assoc, hsk]
    field_simp
    ring
  unfold ecdsaRecid
  by_cases hc : 2 * (ecdsaS d z k).val > n
  · rw [if_pos hc]
    have hge : 2 ≤ (if n ≤ ptX (k.val • G) then 2 else 0) + (1 - ptY (k.val • G) % 2) ↔
        n ≤ ptX (k.val • G) := by split <;> omega
    refine ⟨by split <;> omega, -(k.val • G), ⟨neg_ne_zero.2 hkG, ?_, ?_⟩, ?_⟩
    · rw [ptX_neg]
      simp only [hge]
      exact hrx
    · rw [ptY_neg hkG]; split <;> omega
    · rw [recoveredKey_eq, lowS, if_pos hc, val_smul, smul_neg, mul_neg, neg_smul, neg_neg]
      exact hkey
  · rw [if_neg hc]
    have hge : 2 ≤ (if n ≤ ptX (k.val • G) then 2 else 0) + ptY (k.val • G) % 2 ↔
        n ≤ ptX (k.val • G) := by split <;> omega
    refine ⟨by split <;> omega, k.val • G, ⟨hkG, ?_, ?_⟩, ?_⟩
    · simp only [hge]
      exact hrx
    · split <;> omega
    · rw [recoveredKey_eq, lowS, if_neg hc, val_smul]
      exact hkey

end Secp
