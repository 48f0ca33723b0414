import Verif.Spec.Leak
import Verif.Proof.LeakMul
import Verif.Proof.LeakApiVal

/-!
# The functions of the API that handle secrets look the same for all secrets
-/

namespace Secp.Leak

open Model (Ge Gej Ctx GenCtx zeros put cInt)
open Spec (leNat)

theorem SameShape.refl (a : Option (List UInt8)) : SameShape a a := rfl

theorem SameShape.mk {a b : List UInt8} (h : a.length = b.length) : SameShape (some a) (some b) :=
  congrArg some h

theorem SameShape.cases {a b : Option (List UInt8)} (h : SameShape a b) :
    (a = none ∧ b = none) ∨ ∃ x y, a = some x ∧ b = some y ∧ x.length = y.length := by
  match a, b with
  | none, none => exact .inl ⟨rfl, rfl⟩
  | some x, some y => exact .inr ⟨x, y, rfl, rfl, Option.some.inj h⟩
  | none, some y => cases h
  | some x, none => cases h

theorem bytesNats_inj {a b : List UInt8} (h : bytesNats a = bytesNats b) : a = b :=
  List.map_injective_iff.mpr (fun _ _ h => UInt8.toNat_inj.mp h) h

theorem toNat_inj' {a b : Bool} (h : [a.toNat] = [b.toNat]) : a = b := by
  cases a <;> cases b <;> simp_all

theorem geNats_inj {a b : Ge Fp} (h : geNats a = geNats b) : a = b := by
  obtain ⟨x, y, i⟩ := a
  obtain ⟨x', y', i'⟩ := b
  have e := List.cons.inj h
  have e2 := List.cons.inj e.2
  have h1 : x = x' := ZMod.val_injective _ e.1
  have h2 : y = y' := ZMod.val_injective _ e2.1
  have h3 : i = i' := toNat_inj' e2.2
  subst h1 h2 h3
  rfl

theorem Agree.mono {α β : Type} {R S : α → β → Prop} {m : Ct α} {m' : Ct β} (h : Agree R m m')
    (hRS : ∀ a b, R a b → S a b) : Agree S m m' := fun s s' e =>
  let ⟨h1, h2, h3⟩ := h s s' e
  ⟨h1, hRS _ _ h2, h3⟩

theorem Agree.pure {α β : Type} {R : α → β → Prop} {a : α} {b : β} (h : R a b) :
    Agree R (Pure.pure a : Ct α) (Pure.pure b) := (Same.pure h).agree

theorem Agree.branch {b b' : Bool} (h : b = b') : Agree (fun x y => x = y) (branch b) (branch b') :=
  (Same.branch h).agree

/-! ## Keys -/

theorem same_contextRandomize {c c' : Ctx} (h : SameKind c c') {s s' : Option (List UInt8)}
    (hs : SameShape s s') :
    Same (fun _ _ => True) (contextRandomize c s) (contextRandomize c' s') := by
  unfold contextRandomize Model.ecmultGenIsBuilt
  rw [← h.2]
  refine Same.bind (Same.branch rfl) fun _ _ e => Same.ite e (fun _ => Same.pure trivial) fun _ =>
    Same.bind (Same.branch rfl) fun _ _ e => Same.ite e (fun _ => ?_) fun _ => Same.pure trivial
  exact Same.bind (same_ecmultGenBlind h.1 hs) fun _ _ _ => Same.pure trivial

theorem same_ecSeckeyVerify {s s' : Option (List UInt8)} (hs : SameShape s s') :
    Same (fun _ _ => True) (ecSeckeyVerify s) (ecSeckeyVerify s') := by
  obtain ⟨rfl, rfl⟩ | ⟨x, y, rfl, rfl, _⟩ := hs.cases <;>
  exact Same.bind (Same.branch rfl) fun _ _ _ => Same.pure trivial

theorem same_ecPubkeyCreateHelper {g g' : GenCtx} (h : g.cfg = g'.cfg) (s s' : List UInt8) :
    Same (fun _ _ => True) (ecPubkeyCreateHelper g s) (ecPubkeyCreateHelper g' s') :=
  Same.bind (same_ecmultGen h _ _) fun _ _ _ => Same.pure trivial

theorem same_ecPubkeyCreate {c c' : Ctx} (h : SameKind c c') {p p' s s' : Option (List UInt8)}
    (hp : SameShape p p') (hs : SameShape s s') :
    Same (fun _ _ => True) (ecPubkeyCreate c p s) (ecPubkeyCreate c' p' s') := by
  obtain ⟨rfl, rfl⟩ | ⟨x, y, rfl, rfl, _⟩ := hp.cases
  · exact Same.bind (Same.branch rfl) fun _ _ _ => Same.pure trivial
  · unfold ecPubkeyCreate Model.ecmultGenIsBuilt
    rw [← h.2]
    refine Same.bind (Same.branch rfl) fun _ _ _ => Same.bind (Same.branch rfl) fun _ _ e =>
      Same.ite e (fun _ => Same.pure trivial) fun _ => ?_
    obtain ⟨rfl, rfl⟩ | ⟨x, y, rfl, rfl, _⟩ := hs.cases
    · exact Same.bind (Same.branch rfl) fun _ _ _ => Same.pure trivial
    · exact Same.bind (Same.branch rfl) fun _ _ _ =>
        Same.bind (same_ecPubkeyCreateHelper h.1 _ _) fun _ _ _ => Same.pure trivial

theorem same_ecSeckeyNegate {s s' : Option (List UInt8)} (hs : SameShape s s') :
    Same (fun _ _ => True) (ecSeckeyNegate s) (ecSeckeyNegate s') := by
  obtain ⟨rfl, rfl⟩ | ⟨x, y, rfl, rfl, _⟩ := hs.cases <;>
  exact Same.bind (Same.branch rfl) fun _ _ _ => Same.pure trivial

theorem same_ecSeckeyTweakAdd {s s' t t' : Option (List UInt8)} (hs : SameShape s s')
    (ht : SameShape t t') :
    Same (fun _ _ => True) (ecSeckeyTweakAdd s t) (ecSeckeyTweakAdd s' t') := by
  obtain ⟨rfl, rfl⟩ | ⟨x, y, rfl, rfl, _⟩ := hs.cases
  · exact Same.bind (Same.branch rfl) fun _ _ _ => Same.pure trivial
  · obtain ⟨rfl, rfl⟩ | ⟨x, y, rfl, rfl, _⟩ := ht.cases <;>
    refine Same.bind (Same.branch rfl) fun _ _ _ => ?_ <;>
    exact Same.bind (Same.branch rfl) fun _ _ _ => Same.pure trivial

theorem same_ecSeckeyTweakMul {s s' t t' : Option (List UInt8)} (hs : SameShape s s')
    (ht : SameShape t t') :
    Same (fun _ _ => True) (ecSeckeyTweakMul s t) (ecSeckeyTweakMul s' t') := by
  obtain ⟨rfl, rfl⟩ | ⟨x, y, rfl, rfl, _⟩ := hs.cases
  · exact Same.bind (Same.branch rfl) fun _ _ _ => Same.pure trivial
  · obtain ⟨rfl, rfl⟩ | ⟨x, y, rfl, rfl, _⟩ := ht.cases <;>
    refine Same.bind (Same.branch rfl) fun _ _ _ => ?_ <;>
    exact Same.bind (Same.branch rfl) fun _ _ _ => Same.pure trivial

/-! ## Keypairs -/

theorem same_keypairCreate {c c' : Ctx} (h : SameKind c c') {p p' s s' : Option (List UInt8)}
    (hp : SameShape p p') (hs : SameShape s s') :
    Same (fun _ _ => True) (keypairCreate c p s) (keypairCreate c' p' s') := by
  obtain ⟨rfl, rfl⟩ | ⟨x, y, rfl, rfl, _⟩ := hp.cases
  · exact Same.bind (Same.branch rfl) fun _ _ _ => Same.pure trivial
  · unfold keypairCreate Model.ecmultGenIsBuilt
    rw [← h.2]
    refine Same.bind (Same.branch rfl) fun _ _ _ => Same.bind (Same.branch rfl) fun _ _ e =>
      Same.ite e (fun _ => Same.pure trivial) fun _ => ?_
    obtain ⟨rfl, rfl⟩ | ⟨x, y, rfl, rfl, _⟩ := hs.cases
    · exact Same.bind (Same.branch rfl) fun _ _ _ => Same.pure trivial
    · exact Same.bind (Same.branch rfl) fun _ _ _ =>
        Same.bind (same_ecPubkeyCreateHelper h.1 _ _) fun _ _ _ => Same.pure trivial

theorem same_pubkeyLoad (pk : List UInt8) : Same (fun a b => a = b) (pubkeyLoad pk) (pubkeyLoad pk) :=
  ⟨rfl, rfl⟩

theorem agree_keypairSeckeyLoad (k k' : List UInt8) :
    Agree (fun a b => a.2 = b.2) (keypairSeckeyLoad k) (keypairSeckeyLoad k') := by
  unfold keypairSeckeyLoad
  refine Agree.bind (Agree.declassify _ _) fun _ _ e => ?_
  have e := toNat_inj' e
  exact Agree.bind (Agree.branch e) fun _ _ _ => Agree.pure e

theorem agree_keypairSkOf (k k' : List UInt8) (b : Bool) :
    Agree (fun a b => a.2 = b.2) (keypairSkOf k b) (keypairSkOf k' b) := by
  unfold keypairSkOf
  exact Agree.bind (Agree.branch rfl) fun _ _ e => Agree.ite e (fun _ => agree_keypairSeckeyLoad _ _)
    fun _ => Agree.pure rfl

/-- The public key and the validity of two keypairs are the same when the declassified values are. -/
theorem agree_keypairLoad (k k' : List UInt8) :
    Agree (fun a b => a.2 = b.2) (keypairLoad k) (keypairLoad k') := by
  unfold keypairLoad
  refine Agree.bind (Agree.declassify _ _) fun _ _ e => ?_
  rw [← bytesNats_inj e]
  refine Agree.bind (same_pubkeyLoad _).agree fun a b e => ?_
  subst e
  refine Agree.bind (agree_keypairSkOf _ _ _) fun s s' e => ?_
  exact Agree.bind (Agree.branch (by rw [e])) fun _ _ e => Agree.ite e (fun _ => Agree.pure rfl)
    fun _ => Agree.pure rfl

theorem agree_keypairXonlyTweakAdd {k k' : Option (List UInt8)} (hk : SameShape k k')
    (t : Option (List UInt8)) :
    Agree (fun _ _ => True) (keypairXonlyTweakAdd k t) (keypairXonlyTweakAdd k' t) := by
  obtain ⟨rfl, rfl⟩ | ⟨x, y, rfl, rfl, _⟩ := hk.cases
  · exact Agree.bind (Agree.branch rfl) fun _ _ _ => Agree.pure trivial
  · unfold keypairXonlyTweakAdd
    refine Agree.bind (Agree.branch rfl) fun _ _ _ => Agree.bind (Agree.branch rfl) fun _ _ _ => ?_
    cases t with
    | none => exact Agree.pure trivial
    | some t =>
      refine Agree.bind (agree_keypairLoad x y) fun l l' e => ?_
      rw [← e]
      refine Agree.bind (R := fun a b => a = b) (Same.agree ⟨rfl, rfl⟩) fun a b e => ?_
      subst e
      refine Agree.bind (Agree.branch rfl) fun b b' e => ?_
      subst e
      refine Agree.bind (R := fun a b => a = b) (Same.agree ⟨rfl, rfl⟩) fun p p' e => ?_
      subst e
      refine Agree.bind (Agree.declassify _ _) fun _ _ e => ?_
      exact Agree.bind (Agree.branch (toNat_inj' e)) fun _ _ _ => Agree.pure trivial

end Secp.Leak
