import Verif.Props.C26

/-! # C27: taproot-style tweak commitments -/

namespace Secp
open Model Spec

/-- For an x-only key `P` and a tweak `t`, `secp256k1_xonly_pubkey_tweak_add` succeeds when `t < n` and
`P + t • G` is not infinity, and then stores that point. -/
theorem C27_tweak_add {P : Pt} (hP : P ≠ 0) {tweak : Bytes} (ht : tweak.length = 32)
    (htn : beNat tweak < n) (hne : P + beNat tweak • G ≠ 0) (old : Bytes) :
    xonlyPubkeyTweakAdd (some old) (some (keyObject P)) (some tweak) =
      ⟨1, 0, some (keyObject (P + beNat tweak • G))⟩ := by
  obtain ⟨h1, h2, -⟩ := pubkeyLoad_obj hP
  obtain ⟨k1, k2⟩ := tweakHelper_rep h2 ht
  have hk := k1.2 ⟨htn, hne⟩
  simp only [xonlyPubkeyTweakAdd, h1, hk]
  rw [pubkeySave_rep (k2 hk) hne]
  rfl

/-- Otherwise it returns 0 and zeroes the output. -/
theorem C27_tweak_add_fail {P : Pt} (hP : P ≠ 0) {tweak : Bytes} (ht : tweak.length = 32)
    (h : n ≤ beNat tweak ∨ P + beNat tweak • G = 0) (old : Bytes) :
    xonlyPubkeyTweakAdd (some old) (some (keyObject P)) (some tweak) =
      ⟨0, 0, some (List.replicate 64 0)⟩ := by
  obtain ⟨h1, h2, -⟩ := pubkeyLoad_obj hP
  have hk : (ecPubkeyTweakAddHelper (pubkeyLoad (keyObject P)).1 tweak).2 = false := by
    rw [Bool.eq_false_iff, Ne, (tweakHelper_rep h2 ht).1]
    rintro ⟨a, b⟩
    rcases h with h | h
    · omega
    · exact b h
  simp only [xonlyPubkeyTweakAdd, h1, hk]
  rfl

example := C27_tweak_add_fail G_ne_zero (tweak := beBytes 32 n) (Hash.beBytes_length _ _)
  (Or.inl (by decide +kernel)) [7]

/-- `secp256k1_xonly_pubkey_tweak_add_check` returns 1 exactly when `t < n` and `P + t • G` is a finite
point with the claimed x coordinate (as 32 bytes) and the claimed parity; otherwise 0. -/
theorem C27_check_iff {P : Pt} (hP : P ≠ 0) {tweak claimed : Bytes} (ht : tweak.length = 32)
    (hc : claimed.length = 32) (parity : Int) :
    let o := xonlyPubkeyTweakAddCheck (some claimed) parity (some (keyObject P)) (some tweak)
    (o.ret = 1 ↔ beNat tweak < n ∧ P + beNat tweak • G ≠ 0 ∧
      beBytes 32 (ptX (P + beNat tweak • G)) = claimed ∧
      ((ptY (P + beNat tweak • G) % 2 : ℕ) : Int) = parity) ∧
    (o.ret = 1 ∨ o.ret = 0) ∧ o.illegal = 0 := by
  obtain ⟨h1, h2, -⟩ := pubkeyLoad_obj hP
  obtain ⟨k1, k2⟩ := tweakHelper_rep h2 ht
  by_cases hk : (ecPubkeyTweakAddHelper (pubkeyLoad (keyObject P)).1 tweak).2 = true
  · obtain ⟨t1, t2⟩ := k1.1 hk
    have hr := k2 hk
    have hx := feGetB32_rep hr t2
    have hy := geRep_y hr t2
    have hm := (memcmpVar_lt (xonly_length (P + beNat tweak • G)) hc).2.1
    simp only [xonlyPubkeyTweakAddCheck, h1, hk, Bool.not_true, Bool.false_eq_true, if_false]
    rw [show (FeOps.normalize (ecPubkeyTweakAddHelper (pubkeyLoad (keyObject P)).1 tweak).1.x : Fp) =
      (ecPubkeyTweakAddHelper (pubkeyLoad (keyObject P)).1 tweak).1.x from rfl,
      show (FeOps.normalize (ecPubkeyTweakAddHelper (pubkeyLoad (keyObject P)).1 tweak).1.y : Fp) =
      (ecPubkeyTweakAddHelper (pubkeyLoad (keyObject P)).1 tweak).1.y from rfl, hx]
    have hp : cInt (feIsOdd (ecPubkeyTweakAddHelper (pubkeyLoad (keyObject P)).1 tweak).1.y) =
        ((ptY (P + beNat tweak • G) % 2 : ℕ) : Int) := by
      rw [← hy]
      have := feIsOdd_iff (ecPubkeyTweakAddHelper (pubkeyLoad (keyObject P)).1 tweak).1.y
      cases ho : feIsOdd (ecPubkeyTweakAddHelper (pubkeyLoad (keyObject P)).1 tweak).1.y
      · rw [ho] at this
        have h2 := Nat.mod_two_eq_zero_or_one (ecPubkeyTweakAddHelper (pubkeyLoad (keyObject P)).1 tweak).1.y.val
        rw [h2.resolve_right (fun e => by simpa using this.2 e)]; rfl
      · rw [this.1 ho]; rfl
    rw [hp]
    refine ⟨?_, ?_, trivial⟩
    · rw [← xonly, ← hm]
      simp only [cInt]
      by_cases ha : memcmpVar (xonly (P + beNat tweak • G)) claimed 32 = 0 <;>
      by_cases hb : ((ptY (P + beNat tweak • G) % 2 : ℕ) : Int) = parity <;>
      simp [ha, hb, t1, t2]
    · unfold cInt
      split
      · exact Or.inl rfl
      · exact Or.inr rfl
  · have hf : ¬ (beNat tweak < n ∧ P + beNat tweak • G ≠ 0) := fun h => hk (k1.2 h)
    rw [Bool.not_eq_true] at hk
    simp only [xonlyPubkeyTweakAddCheck, h1, hk, Bool.not_true, Bool.not_false, Bool.false_eq_true,
      if_false, if_true]
    refine ⟨⟨fun h => absurd h (by decide), fun h => absurd ⟨h.1, h.2.1⟩ hf⟩, Or.inr trivial, trivial⟩

/-- The output of `tweak_add`, turned into an x-only key and parity, passes the check; and a check that
passes names exactly the output of `tweak_add`. -/
theorem C27_check_matches_add {P : Pt} (hP : P ≠ 0) {tweak claimed : Bytes} (ht : tweak.length = 32)
    (hc : claimed.length = 32) (parity : Int) (old old' out : Bytes) (ho : out.length = 32) (q : Int) :
    (xonlyPubkeyTweakAddCheck (some claimed) parity (some (keyObject P)) (some tweak)).ret = 1 ↔
    ∃ pk xo, xonlyPubkeyTweakAdd (some old) (some (keyObject P)) (some tweak) = ⟨1, 0, some pk⟩ ∧
      xonlyPubkeyFromPubkey (some old') (some q) (some pk) = ⟨1, 0, (some xo, some parity)⟩ ∧
      xonlyPubkeySerialize (some out) (some xo) = ⟨1, 0, some claimed⟩ := by
  rw [(C27_check_iff hP ht hc parity).1]
  constructor
  · rintro ⟨h1, h2, h3, h4⟩
    refine ⟨_, _, C27_tweak_add hP ht h1 h2 old, ?_, C26_serialize (evenY_ne_zero h2) ho |>.trans ?_⟩
    · rw [C26_from_pubkey h2, Option.map_some, h4]
    · rw [xonly_evenY, xonly, h3]
  · rintro ⟨pk, xo, h1, h2, h3⟩
    by_cases hok : beNat tweak < n ∧ P + beNat tweak • G ≠ 0
    · rw [C27_tweak_add hP ht hok.1 hok.2] at h1
      injection h1 with _ _ e1
      rw [← Option.some.inj e1, C26_from_pubkey hok.2, Option.map_some] at h2
      injection h2 with _ _ e2
      obtain ⟨e3, e4⟩ := Prod.ext_iff.1 e2
      rw [← Option.some.inj e3, C26_serialize (evenY_ne_zero hok.2) ho, xonly_evenY] at h3
      injection h3 with _ _ e5
      exact ⟨hok.1, hok.2, Option.some.inj e5, Option.some.inj e4⟩
    · have hf : n ≤ beNat tweak ∨ P + beNat tweak • G = 0 := by
        by_cases h : n ≤ beNat tweak
        · exact Or.inl h
        · right; by_contra h'; exact hok ⟨by omega, h'⟩
      rw [C27_tweak_add_fail hP ht hf] at h1
      injection h1 with e
      exact absurd e (by decide)

/-- The generator tweaked by 1 gives 2G; tweaked by n-1 it gives infinity. -/
example : beNat (beBytes 32 1) < n ∧ G + beNat (beBytes 32 1) • G ≠ 0 ∧
    G + beNat (beBytes 32 (n - 1)) • G = 0 ∧ beNat (beBytes 32 (n - 1)) < n := by
  have h1 : beNat (beBytes 32 1) = 1 := by decide +kernel
  have h2 : beNat (beBytes 32 (n - 1)) = n - 1 := by decide +kernel
  rw [h1, h2]
  refine ⟨by decide +kernel, ?_, ?_, by decide +kernel⟩
  · rw [one_nsmul, ← two_nsmul, ← natCast_smul]
    exact smul_G_ne (by decide +kernel)
  · rw [← succ_nsmul', Nat.sub_add_cancel n_pos, n_smul]

end Secp
