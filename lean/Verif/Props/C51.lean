import Verif.Props.C50

/-! # C51: ElligatorSwift key exchange and invalid secret keys

The property (include/secp256k1_ellswift.h: "Returns: 1 … 0: secret was invalid") is false of the code:
the overflow flag of `secp256k1_scalar_set_b32` is overwritten before it is used, so that a secret key
above the group order is reduced instead of rejected. -/

namespace Secp
open Model Spec

/-- The full property: a secret key that is zero or not below `n` makes the function return 0. -/
def XdhRejectsInvalid : Prop :=
  ∀ (out a b sk : Bytes) (party : Int) (h : EllswiftHash), a.length = 64 → b.length = 64 →
    sk.length = 32 → (beNat sk = 0 ∨ n ≤ beNat sk) →
    (ellswiftXdh (some out) (some a) (some b) (some sk) party (some h)).ret = 0

theorem ellDecodes_exists (e : Bytes) : ∃ P, EllDecodes e P :=
  let ⟨P, h, _⟩ := decode_spec [] e
  ⟨P, h⟩

/-- A key above `n` that is not a multiple of `n` gives exactly the result of the reduced key: the hash
of the x coordinate of its product with the other party's point, and a successful return. -/
theorem C51_reduced {P : Pt} {a b : Bytes} {party : Int}
    (hP : EllDecodes (if party ≠ 0 then a else b) P) (out : Bytes) {sk : Bytes} (hl : sk.length = 32)
    (h0 : beNat sk % n ≠ 0) (h : EllswiftHash) :
    ellswiftXdh (some out) (some a) (some b) (some sk) party (some h) =
      (let r := h out (beBytes 32 (ptX ((beNat sk % n) • P))) a b
       ⟨if r.1 = 0 then 0 else 1, 0, some r.2⟩) := by
  have e : (scSetB32 sk).1 = ((beNat sk % n : ℕ) : Fn) := by
    simp only [scSetB32]; rw [take32 hl, ZMod.natCast_mod]
  have h0 : ((beNat sk % n : ℕ) : Fn) ≠ 0 := cast_ne_zero (Nat.pos_of_ne_zero h0) (Nat.mod_lt _ n_pos)
  have hz : scIsZero (scSetB32 sk).1 = false := by
    rw [e]; exact decide_eq_false (fun h => h0 ((ZMod.val_eq_zero _).1 h))
  rw [xdh_eq rfl hP out sk h h0 (by rw [hz, e]; rfl), hz]
  simp only [natCast_smul, cInt, Bool.not_false, Bool.and_true, decide_eq_true_eq]
  split_ifs <;> simp_all

/-- The property is false: with the secret key `n + 1` and the BIP-324 hash function the call returns
1. -/
theorem C51_false : ¬ XdhRejectsInvalid := by
  intro h
  have hl : (beBytes 32 (n + 1)).length = 32 := Hash.beBytes_length _ _
  have hv : beNat (beBytes 32 (n + 1)) = n + 1 := by
    rw [beNat_beBytes]; unfold n; rfl
  obtain ⟨P, hP⟩ := ellDecodes_exists (zeros 64)
  have h1 := h (zeros 32) (zeros 64) (zeros 64) _ 0 ellswiftHashBip324 rfl rfl hl
    (Or.inr (by rw [hv]; omega))
  rw [C51_reduced (P := P) (by simpa using hP) _ hl (by rw [hv]; unfold n; decide)] at h1
  simp [ellswiftHashBip324] at h1

/-- The part that holds.  Full statement: `XdhRejectsInvalid`.  Missing: keys above `n`.  A secret key
that is a multiple of the group order (0 or `n`, as 32 bytes) makes the function return 0, with the
hash function called as if the key were 1. -/
theorem C51_xdh_partial {P : Pt} {a b : Bytes} {party : Int}
    (hP : EllDecodes (if party ≠ 0 then a else b) P) (out : Bytes) {sk : Bytes} (hl : sk.length = 32)
    (h0 : beNat sk = 0 ∨ beNat sk = n) (h : EllswiftHash) :
    ellswiftXdh (some out) (some a) (some b) (some sk) party (some h) =
      ⟨0, 0, some (h out (beBytes 32 (ptX P)) a b).2⟩ := by
  have e : (scSetB32 sk).1 = 0 := by
    simp only [scSetB32]; rw [take32 hl]
    rcases h0 with h0 | h0 <;> rw [h0]
    · exact Nat.cast_zero
    · exact cast_n
  have hz : scIsZero (scSetB32 sk).1 = true := by rw [e]; simp [scIsZero]
  rw [xdh_eq rfl hP out sk h one_ne_zero (by rw [hz]; rfl), hz]
  simp only [one_smul, Bool.not_true, Bool.and_false]
  rfl

/-- Every encoding decodes to some point, and the keys 0 and `n` exist. -/
example (e : Bytes) : (∃ P, EllDecodes e P) ∧ beNat (beBytes 32 0) = 0 ∧ beNat (beBytes 32 n) = n :=
  ⟨ellDecodes_exists e, by decide +kernel, by decide +kernel⟩

end Secp
