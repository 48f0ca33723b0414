import Verif.Proof.MemRep
import Verif.Proof.Stored
import Verif.Props.C68

/-!
# The code above the field computes the same on limbs as on values
-/

namespace Secp.Model
open Secp FeOps LimbRep
open Secp.Spec (beNat beBytes leNat leBytes)

variable {α : Type} [FeOps α] [FeMem α] [LimbRep α] [MemRep α]

/-- The limbs of a point whose coordinates are normalized. -/
structure GeNorm (c : Ge α) (C : Ge Fp) : Prop where
  x : MemRep.Norm c.x C.x
  y : MemRep.Norm c.y C.y
  inf : c.infinity = C.infinity

theorem GeNorm.limb {c : Ge α} {C : Ge Fp} (h : GeNorm c C) : GeLimb c C :=
  ⟨(MemRep.rep h.x).mono (by omega), (MemRep.rep h.y).mono (by omega), h.inf⟩

/-- A key object whose stored coordinates are below `p`: that is what `secp256k1_ge_to_storage` writes. -/
def Canon (b : List UInt8) : Prop := leNat (b.take 32) < p ∧ leNat ((b.drop 32).take 32) < p

namespace Limb

variable {c d : Ge α} {C D : Ge Fp} {a : Gej α} {A : Gej Fp}

theorem norm_of_rep {x : α} {X : Fp} {m : ℕ} (h : Rep x m X) (hm : m ≤ 31 := by omega) :
    MemRep.Norm (FeOps.normalize x) (FeOps.normalize X) := MemRep.normalize (h.mono hm)

theorem norm_odd {x : α} {X : Fp} {m : ℕ} (h : Rep x m X) (hm : m ≤ 31 := by omega) :
    Limb.feIsOdd (FeOps.normalize x) = Model.feIsOdd (FeOps.normalize X) := MemRep.isOdd (norm_of_rep h hm)

theorem norm_b32 {x : α} {X : Fp} {m : ℕ} (h : Rep x m X) (hm : m ≤ 31 := by omega) :
    Limb.feGetB32 (FeOps.normalize x) = Model.feGetB32 (FeOps.normalize X) := MemRep.getB32 (norm_of_rep h hm)

theorem geSetXoVar_limb {x : α} {X : Fp} (h : Rep x 2 X) (odd : Bool) :
    (Limb.geSetXoVar x odd).2 = (Model.geSetXoVar X odd).2 ∧
      GeLimb (Limb.geSetXoVar x odd).1 (Model.geSetXoVar X odd).1 := by
  have x3 := (h.mul' h.sqr').addInt' curveB
  obtain ⟨s1, s2⟩ := x3.sqrt
  have o := norm_odd s1
  have n := MemRep.rep (norm_of_rep s1)
  unfold Limb.geSetXoVar Model.geSetXoVar
  dsimp only
  rw [o]
  refine ⟨s2, h.mono (by omega), ?_, rfl⟩
  split_ifs
  · exact (n.negate' 1).mono (by omega)
  · exact n.mono (by omega)

theorem geToBytes_limb (h : GeLimb c C) : Limb.geToBytes c = Model.geToBytes C := by
  unfold Limb.geToBytes Model.geToBytes
  rw [MemRep.toMem (norm_of_rep h.x), MemRep.toMem (norm_of_rep h.y)]

theorem pubkeySave_limb (h : GeLimb c C) : Limb.pubkeySave c = Model.pubkeySave C := geToBytes_limb h

theorem take32_le (b : List UInt8) : (b.take 32).length ≤ 32 := by
  rw [List.length_take]; exact Nat.min_le_left _ _

variable (α) in
theorem geFromBytes_limb (b : List UInt8) : GeLimb (Limb.geFromBytes α b) (Model.geFromBytes b) :=
  ⟨(MemRep.fromMem (take32_le _)).mono (by omega), (MemRep.fromMem (take32_le _)).mono (by omega), rfl⟩

variable (α) in
theorem geFromBytes_norm {b : List UInt8} (h : Canon b) : GeNorm (Limb.geFromBytes α b) (Model.geFromBytes b) :=
  ⟨MemRep.fromMemNorm (take32_le _) h.1, MemRep.fromMemNorm (take32_le _) h.2, rfl⟩

variable (α) in
theorem pubkeyLoad_limb (b : List UInt8) : (Limb.pubkeyLoad α b).2 = (Model.pubkeyLoad b).2 ∧
    GeLimb (Limb.pubkeyLoad α b).1 (Model.pubkeyLoad b).1 := by
  refine ⟨?_, geFromBytes_limb α b⟩
  unfold Limb.pubkeyLoad Model.pubkeyLoad
  dsimp only
  rw [show Limb.feIsZero (Limb.geFromBytes α b).x = _ from MemRep.fromMemZero (take32_le _)]
  rfl

variable (α) in
theorem pubkeyLoad_norm {b : List UInt8} (h : Canon b) : GeNorm (Limb.pubkeyLoad α b).1 (Model.pubkeyLoad b).1 :=
  geFromBytes_norm α h

theorem eckeyPubkeyParse_limb (pub : List UInt8) :
    (Limb.eckeyPubkeyParse α pub).2 = (Model.eckeyPubkeyParse pub).2 ∧
      GeLimb (Limb.eckeyPubkeyParse α pub).1 (Model.eckeyPubkeyParse pub).1 := by
  have hg : GeLimb (geGarbage : Ge α) geGarbage := ⟨(Rep.int 0).mono (by omega), (Rep.int 0).mono (by omega), rfl⟩
  unfold Limb.eckeyPubkeyParse Model.eckeyPubkeyParse
  dsimp only
  by_cases c1 : pub.length = 33 ∧ (pub.headD 0 = tagEven ∨ pub.headD 0 = tagOdd)
  · rw [if_pos c1, if_pos c1]
    obtain ⟨e, r⟩ := MemRep.setB32Limit (α := α) (b := pub.drop 1) (by rw [List.length_drop]; omega)
    unfold Limb.feSetB32Limit
    rw [e]
    split_ifs
    · exact geSetXoVar_limb (r.mono (by omega)) _
    · exact ⟨rfl, hg⟩
  · rw [if_neg c1, if_neg c1]
    by_cases c2 : pub.length = 65 ∧ (pub.headD 0 = tagUncompressed ∨ pub.headD 0 = tagHybridEven ∨
      pub.headD 0 = tagHybridOdd)
    · rw [if_pos c2, if_pos c2]
      obtain ⟨e, r⟩ := MemRep.setB32Limit (α := α) (b := pub.drop 1) (by rw [List.length_drop]; omega)
      have l2 : 32 ≤ (pub.drop 33).length := by rw [List.length_drop]; omega
      obtain ⟨e', r'⟩ := MemRep.setB32Limit (α := α) (b := pub.drop 33) l2
      unfold Limb.feSetB32Limit
      rw [e, e']
      by_cases c3 : (!(Model.feSetB32Limit (pub.drop 1)).2 || !(Model.feSetB32Limit (pub.drop 33)).2) = true
      · rw [if_pos c3, if_pos c3]
        exact ⟨rfl, hg⟩
      · rw [if_neg c3, if_neg c3]
        have n : MemRep.Norm (FeMem.setB32Limit (pub.drop 33) : α × Bool).1 (Model.feSetB32Limit (pub.drop 33)).1 :=
          MemRep.setB32LimitNorm l2 (by
            cases hh : (Model.feSetB32Limit (pub.drop 33)).2
            · rw [hh] at c3; simp at c3
            · rfl)
        have hl : GeLimb (geSetXY (FeMem.setB32Limit (pub.drop 1) : α × Bool).1
            (FeMem.setB32Limit (pub.drop 33) : α × Bool).1)
            (geSetXY (Model.feSetB32Limit (pub.drop 1)).1 (Model.feSetB32Limit (pub.drop 33)).1) :=
          ⟨r.mono (by omega), r'.mono (by omega), rfl⟩
        unfold Limb.feIsOdd
        rw [MemRep.isOdd n]
        split_ifs
        · exact ⟨rfl, hl⟩
        · exact ⟨hl.valid, hl⟩
    · rw [if_neg c2, if_neg c2]
      exact ⟨rfl, hg⟩

theorem eckeyPubkeySerialize_limb (h : GeLimb c C) (pub : List UInt8) (size : ℕ) (compressed : Bool) :
    Limb.eckeyPubkeySerialize c pub size compressed = Model.eckeyPubkeySerialize C pub size compressed := by
  unfold Limb.eckeyPubkeySerialize Model.eckeyPubkeySerialize
  dsimp only
  rw [h.inf, norm_b32 h.x, norm_odd h.y, norm_b32 h.y]

/-! ### Keys -/

theorem ecPubkeyParse_eq (pubkey input : Option (List UInt8)) :
    Limb.ecPubkeyParse α pubkey input = Model.ecPubkeyParse pubkey input := by
  unfold Limb.ecPubkeyParse Model.ecPubkeyParse
  cases pubkey with
  | none => rfl
  | some _ =>
    cases input with
    | none => rfl
    | some input =>
      obtain ⟨e, l⟩ := eckeyPubkeyParse_limb (α := α) input
      dsimp only
      rw [e, pubkeySave_limb l]
      rfl

theorem ecPubkeySerialize_eq (output : Option (List UInt8)) (outputlen : Option ℕ)
    (pubkey : Option (List UInt8)) (flags : UInt32) :
    Limb.ecPubkeySerialize α output outputlen pubkey flags = Model.ecPubkeySerialize output outputlen pubkey flags := by
  unfold Limb.ecPubkeySerialize Model.ecPubkeySerialize
  cases outputlen with
  | none => rfl
  | some len =>
    cases output with
    | none => rfl
    | some out =>
      cases pubkey with
      | none => rfl
      | some pubkey =>
        obtain ⟨e, l⟩ := pubkeyLoad_limb α pubkey
        dsimp only
        rw [e, eckeyPubkeySerialize_limb l]

theorem ecPubkeyCmp_eq (pk0 pk1 : Option (List UInt8)) :
    Limb.ecPubkeyCmp α pk0 pk1 = Model.ecPubkeyCmp pk0 pk1 := by
  have h : ∀ pk, Limb.ecPubkeyCmpKey α pk = Model.ecPubkeyCmpKey pk := by
    intro pk
    unfold Limb.ecPubkeyCmpKey Model.ecPubkeyCmpKey
    dsimp only
    rw [ecPubkeySerialize_eq]
  unfold Limb.ecPubkeyCmp Model.ecPubkeyCmp
  dsimp only
  rw [h, h]

theorem ecPubkeyNegate_eq (pubkey : Option (List UInt8)) :
    Limb.ecPubkeyNegate α pubkey = Model.ecPubkeyNegate pubkey := by
  unfold Limb.ecPubkeyNegate Model.ecPubkeyNegate
  cases pubkey with
  | none => rfl
  | some pubkey =>
    obtain ⟨e, l⟩ := pubkeyLoad_limb α pubkey
    dsimp only
    rw [e, pubkeySave_limb l.neg]

theorem ecmult_l (h : GejLimb a A) (na : Fn) (ng : Option Fn) : GejLimb (ecmult a na ng) (ecmult A na ng) :=
  ecmult_limb preG_stored preG128_stored h na ng

theorem eckeyPubkeyTweakAdd_limb (h : GeLimb c C) (t : Fn) :
    (Limb.eckeyPubkeyTweakAdd c t).2 = (Model.eckeyPubkeyTweakAdd C t).2 ∧
      GeLimb (Limb.eckeyPubkeyTweakAdd c t).1 (Model.eckeyPubkeyTweakAdd C t).1 := by
  have m := ecmult_l h.gej 1 (some t)
  unfold Limb.eckeyPubkeyTweakAdd Model.eckeyPubkeyTweakAdd
  dsimp only
  rw [m.inf]
  split_ifs
  · exact ⟨rfl, h⟩
  · exact ⟨rfl, m.ge MemRep.inv⟩

theorem ecPubkeyTweakAddHelper_limb (h : GeLimb c C) (t : List UInt8) :
    (Limb.ecPubkeyTweakAddHelper c t).2 = (Model.ecPubkeyTweakAddHelper C t).2 ∧
      GeLimb (Limb.ecPubkeyTweakAddHelper c t).1 (Model.ecPubkeyTweakAddHelper C t).1 := by
  unfold Limb.ecPubkeyTweakAddHelper Model.ecPubkeyTweakAddHelper
  dsimp only
  split_ifs
  · exact eckeyPubkeyTweakAdd_limb h _
  · exact ⟨rfl, h⟩

theorem ecPubkeyTweakAdd_eq (pubkey tweak32 : Option (List UInt8)) :
    Limb.ecPubkeyTweakAdd α pubkey tweak32 = Model.ecPubkeyTweakAdd pubkey tweak32 := by
  unfold Limb.ecPubkeyTweakAdd Model.ecPubkeyTweakAdd
  cases pubkey with
  | none => rfl
  | some pubkey =>
    cases tweak32 with
    | none => rfl
    | some tweak32 =>
      obtain ⟨e, l⟩ := pubkeyLoad_limb α pubkey
      obtain ⟨e', l'⟩ := ecPubkeyTweakAddHelper_limb l tweak32
      dsimp only
      rw [e, e', pubkeySave_limb l']

theorem ecPubkeyTweakMul_eq (pubkey tweak32 : Option (List UInt8)) :
    Limb.ecPubkeyTweakMul α pubkey tweak32 = Model.ecPubkeyTweakMul pubkey tweak32 := by
  unfold Limb.ecPubkeyTweakMul Model.ecPubkeyTweakMul
  cases pubkey with
  | none => rfl
  | some pubkey =>
    cases tweak32 with
    | none => rfl
    | some tweak32 =>
      obtain ⟨e, l⟩ := pubkeyLoad_limb α pubkey
      have m : ∀ t, (Limb.eckeyPubkeyTweakMul (Limb.pubkeyLoad α pubkey).1 t).2 =
          (Model.eckeyPubkeyTweakMul (Model.pubkeyLoad pubkey).1 t).2 ∧
          GeLimb (Limb.eckeyPubkeyTweakMul (Limb.pubkeyLoad α pubkey).1 t).1
            (Model.eckeyPubkeyTweakMul (Model.pubkeyLoad pubkey).1 t).1 := by
        intro t
        have m := ecmult_l l.gej t (some 0)
        unfold Limb.eckeyPubkeyTweakMul Model.eckeyPubkeyTweakMul
        split_ifs
        · exact ⟨rfl, l⟩
        · exact ⟨rfl, m.ge MemRep.inv⟩
      obtain ⟨e', l'⟩ := m (scSetB32 tweak32).1
      dsimp only
      rw [e, e', pubkeySave_limb l']

theorem ecPubkeyCombineLoop_limb (pks : List (Option (List UInt8))) (h : GejLimb a A) (ill : ℕ) :
    (Limb.ecPubkeyCombineLoop α pks a ill).2 = (Model.ecPubkeyCombineLoop pks A ill).2 ∧
      Option.Rel GejLimb (Limb.ecPubkeyCombineLoop α pks a ill).1 (Model.ecPubkeyCombineLoop pks A ill).1 := by
  induction pks generalizing a A ill with
  | nil => exact ⟨rfl, .some h⟩
  | cons pk rest ih =>
    cases pk with
    | none => exact ⟨rfl, .none⟩
    | some pk =>
      obtain ⟨e, l⟩ := pubkeyLoad_limb α pk
      rw [Limb.ecPubkeyCombineLoop, Model.ecPubkeyCombineLoop, e]
      exact ih (h.addGe l) _

theorem ecPubkeyCombine_eq (pubnonce : Option (List UInt8)) (pubnonces : Option (List (Option (List UInt8))))
    (n : ℕ) : Limb.ecPubkeyCombine α pubnonce pubnonces n = Model.ecPubkeyCombine pubnonce pubnonces n := by
  unfold Limb.ecPubkeyCombine Model.ecPubkeyCombine
  cases pubnonce with
  | none => rfl
  | some _ =>
    cases pubnonces with
    | none => rfl
    | some pks =>
      dsimp only
      by_cases hn : ¬ n ≥ 1
      · rw [if_pos hn, if_pos hn]
      · rw [if_neg hn, if_neg hn]
        obtain ⟨e, r⟩ := ecPubkeyCombineLoop_limb (α := α) (pks.take n) GejLimb.infinity 0
        revert e r
        generalize Limb.ecPubkeyCombineLoop α (pks.take n) gejInfinity 0 = u
        generalize Model.ecPubkeyCombineLoop (pks.take n) gejInfinity 0 = v
        intro e r
        obtain ⟨u1, u2⟩ := u
        obtain ⟨v1, v2⟩ := v
        dsimp only at e r
        subst e
        cases r with
        | none => rfl
        | some h =>
          dsimp only
          rw [h.inf, pubkeySave_limb (h.ge MemRep.inv)]

end Limb

end Secp.Model
