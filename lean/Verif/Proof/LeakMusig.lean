import Verif.Proof.LeakEll

/-!
# The MuSig functions reveal what the library declassifies, and nothing else
-/

namespace Secp.Leak

open Model (Ge Gej Ctx GenCtx zeros put cInt)

theorem same_musigNonceHelper {h h' : Hash.Sha} (hh : ShaEq h h') (p : Nat) {d d' : Option (List UInt8)}
    (hd : SameShape d d') (l : Nat) :
    Same ShaEq (musigNonceHelper h p d l) (musigNonceHelper h' p d' l) := by
  unfold musigNonceHelper
  obtain ⟨rfl, rfl⟩ | ⟨x, y, rfl, rfl, hx⟩ := hd.cases
  · exact Same.bind (same_write hh rfl) fun _ _ h => Same.bind (Same.branch rfl) fun _ _ _ =>
      same_write h rfl
  · exact Same.bind (same_write hh rfl) fun _ _ h => Same.bind (Same.branch rfl) fun _ _ _ =>
      Same.bind (same_write h rfl) fun _ _ h => same_write h (take_len _ hx)

theorem same_musigRand {r r' : List UInt8} (hr : r.length = r'.length) {s s' : Option (List UInt8)}
    (hs : SameShape s s') :
    Same (fun a b => a.length = b.length) (musigRand r s) (musigRand r' s') := by
  unfold musigRand
  obtain ⟨rfl, rfl⟩ | ⟨x, y, rfl, rfl, hx⟩ := hs.cases
  · exact Same.bind (Same.branch rfl) fun _ _ _ => Same.pure (take_len _ hr)
  · exact Same.bind (Same.branch rfl) fun _ _ _ =>
      Same.bind (same_write (shaEq_mid rfl rfl) (take_len _ hr)) fun _ _ h =>
      Same.bind (same_finalize h) fun _ _ h =>
      Same.pure (xor32_len (h.1.trans h.2.1.symm) (take_len _ hx))

theorem same_isSome {d d' : Option (List UInt8)} (hd : SameShape d d') : d.isSome = d'.isSome := by
  obtain ⟨rfl, rfl⟩ | ⟨x, y, rfl, rfl, hx⟩ := hd.cases <;> rfl

theorem same_musigNonceState {r r' : List UInt8} (hr : r.length = r'.length)
    {m m' e e' : Option (List UInt8)} (hm : SameShape m m') (pk : List UInt8) (agg : Option (List UInt8))
    (he : SameShape e e') :
    Same ShaEq (musigNonceState r m pk agg e) (musigNonceState r' m' pk agg e') := by
  unfold musigNonceState
  refine Same.bind (same_write (shaEq_mid rfl rfl) hr) fun _ _ h =>
    Same.bind (same_musigNonceHelper h _ rfl _) fun _ _ h =>
    Same.bind (same_musigNonceHelper h _ rfl _) fun _ _ h =>
    Same.bind (same_write h rfl) fun _ _ h =>
    Same.bind (R := ShaEq) ?_ fun _ _ h => same_musigNonceHelper h _ he _
  exact Same.bind (Same.branch (same_isSome hm)) fun _ _ e => Same.ite e
    (fun _ => same_musigNonceHelper h _ hm _) fun _ => Same.pure h

theorem same_musigNonceK {h h' : Hash.Sha} (hh : ShaEq h h') (i : UInt8) :
    Same (fun _ _ => True) (musigNonceK h i) (musigNonceK h' i) :=
  Same.bind (same_write hh rfl) fun _ _ h => Same.bind (same_finalize h) fun _ _ _ => Same.pure trivial

theorem same_nonceFunctionMusig {r r' : List UInt8} (hr : r.length = r'.length)
    {m m' s s' e e' : Option (List UInt8)} (hm : SameShape m m') (hs : SameShape s s') (pk : List UInt8)
    (agg : Option (List UInt8)) (he : SameShape e e') :
    Same (fun _ _ => True) (nonceFunctionMusig r m s pk agg e) (nonceFunctionMusig r' m' s' pk agg e') :=
  Same.bind (same_musigRand hr hs) fun _ _ h => Same.bind (same_musigNonceState h hm pk agg he)
    fun _ _ h => Same.bind (same_musigNonceK h 0) fun _ _ _ => Same.bind (same_musigNonceK h 1)
    fun _ _ _ => Same.pure trivial

theorem magic_zero {x y : List UInt8} {b b' : Bool} (hx : x.take 4 = Model.secnonceMagic)
    (hy : y.take 4 = Model.secnonceMagic)
    (e : (Model.memczero x (!b)).take 4 = (Model.memczero y (!b')).take 4) : b = b' := by
  have hlx : 4 ≤ x.length := by
    have := congrArg List.length hx
    simp [Model.secnonceMagic] at this
    omega
  have hly : 4 ≤ y.length := by
    have := congrArg List.length hy
    simp [Model.secnonceMagic] at this
    omega
  have z : ∀ l : List UInt8, 4 ≤ l.length → (zeros l.length).take 4 = [0, 0, 0, 0] := by
    intro l hl
    rw [zeros, List.take_replicate, Nat.min_eq_left hl]
    rfl
  cases b <;> cases b' <;> simp [Model.memczero] at e ⊢
  · rw [z x hlx, hy] at e; simp [Model.secnonceMagic] at e
  · rw [z y hly, hx] at e; simp [Model.secnonceMagic] at e

theorem agree_secnonceInvalidate {x y : List UInt8} {b b' : Bool} (hx : x.take 4 = Model.secnonceMagic)
    (hy : y.take 4 = Model.secnonceMagic) :
    Agree (fun _ _ => b = b') (secnonceInvalidate x (!b)) (secnonceInvalidate y (!b')) := by
  unfold secnonceInvalidate
  exact Agree.bind (Agree.declassify _ _) fun _ _ e => Agree.bind (Agree.declassify _ _) fun _ _ _ =>
    Agree.pure (magic_zero hx hy (bytesNats_inj e))

theorem secnonceSave_magic (a b : Fn) (p : Ge Fp) :
    (Model.secnonceSave a b p).take 4 = Model.secnonceMagic := by
  rw [Model.secnonceSave, List.append_assoc, List.append_assoc]
  rfl

theorem agree_musigNonceGenCore {g g' : GenCtx} (h : g.cfg = g'.cfg) {r r' : List UInt8}
    (hr : r.length = r'.length) {m m' s s' e e' : Option (List UInt8)} (hm : SameShape m m')
    (hs : SameShape s s') (pk : Ge Fp) (agg : Option (List UInt8)) (he : SameShape e e') (b b' : Bool) :
    Agree (fun _ _ => b = b') (musigNonceGenCore g r s m pk agg e b)
      (musigNonceGenCore g' r' s' m' pk agg e' b') := by
  unfold musigNonceGenCore
  refine Agree.bind (Same.vartime rfl rfl).agree fun x x' ex => ?_
  subst ex
  refine Agree.bind (same_nonceFunctionMusig hr hm hs x agg he).agree fun k k' _ => ?_
  refine Agree.bind (agree_secnonceInvalidate (secnonceSave_magic _ _ _) (secnonceSave_magic _ _ _))
    fun n n' eb => ?_
  refine Agree.bind (same_ecmultGen h _ _).agree fun p p' _ => ?_
  refine Agree.bind (same_ecmultGen h _ _).agree fun q q' _ => ?_
  exact Agree.bind (Agree.declassify _ _) fun _ _ _ => Agree.bind (Agree.declassify _ _) fun _ _ _ =>
    Agree.pure eb

theorem agree_musigNonceGenInternal {c c' : Ctx} (h : SameKind c c') (n n' : List UInt8)
    {pn pn' : Option (List UInt8)} (hpn : SameShape pn pn') {r r' : List UInt8} (hr : r.length = r'.length)
    {m m' s s' e e' : Option (List UInt8)} (hs : SameShape s s') (pk : Option (List UInt8))
    (hm : SameShape m m') (cache : Option (List UInt8)) (he : SameShape e e') :
    Agree (fun a b => a.ret = b.ret) (musigNonceGenInternal c n pn r s pk m cache e)
      (musigNonceGenInternal c' n' pn' r' s' pk m' cache e') := by
  unfold musigNonceGenInternal Model.ecmultGenIsBuilt
  rw [← h.2]
  obtain ⟨rfl, rfl⟩ | ⟨x, y, rfl, rfl, _⟩ := hpn.cases
  · exact Agree.bind (Agree.branch rfl) fun _ _ _ => Agree.pure rfl
  refine Agree.bind (Agree.branch rfl) fun _ _ _ => Agree.bind (Agree.branch rfl) fun _ _ _ => ?_
  cases pk with
  | none => exact Agree.pure rfl
  | some pk =>
  refine Agree.bind (Agree.branch rfl) fun _ _ e => Agree.ite e (fun _ => Agree.pure rfl) fun _ => ?_
  refine Agree.bind (Agree.branch (same_isSome hs)) fun _ _ _ => ?_
  refine Agree.bind (R := fun a b => a = b) (Same.agree ⟨rfl, rfl⟩) fun agg agg' e => ?_
  subst e
  cases agg with
  | none => exact Agree.pure rfl
  | some agg =>
  refine Agree.bind (same_pubkeyLoad pk).agree fun p p' e => ?_
  subst e
  refine Agree.bind (Agree.branch rfl) fun _ _ e => Agree.ite e (fun _ => Agree.pure rfl) fun _ => ?_
  exact Agree.bind (agree_musigNonceGenCore h.1 hr hm hs p.1 agg he _ _) fun _ _ e =>
    Agree.pure (by rw [e])

theorem agree_musigNonceGen {c c' : Ctx} (h : SameKind c c')
    {n n' pn pn' r r' m m' s s' e e' : Option (List UInt8)} (hn : SameShape n n') (hpn : SameShape pn pn')
    (hr : SameShape r r') (hs : SameShape s s') (pk : Option (List UInt8))
    (hm : SameShape m m') (cache : Option (List UInt8)) (he : SameShape e e') :
    Agree (fun _ _ => True) (musigNonceGen c n pn r s pk m cache e)
      (musigNonceGen c' n' pn' r' s' pk m' cache e') := by
  unfold musigNonceGen
  obtain ⟨rfl, rfl⟩ | ⟨x, y, rfl, rfl, _⟩ := hn.cases
  · exact Agree.bind (Agree.branch rfl) fun _ _ _ => Agree.pure trivial
  obtain ⟨rfl, rfl⟩ | ⟨r, r', rfl, rfl, hr1⟩ := hr.cases
  · exact Agree.bind (Agree.branch rfl) fun _ _ _ => Agree.bind (Agree.branch rfl) fun _ _ _ =>
      Agree.pure trivial
  refine Agree.bind (Agree.branch rfl) fun _ _ _ => Agree.bind (Agree.branch rfl) fun _ _ _ =>
    Agree.bind (Agree.declassify _ _) fun _ _ e => ?_
  refine Agree.bind (Agree.branch (Bool.not_inj (toNat_inj' e))) fun _ _ e => Agree.ite e (fun _ => ?_)
    fun _ => ?_
  · refine Agree.bind (R := fun _ _ => True) (Same.agree ⟨rfl, trivial⟩) fun _ _ _ => Agree.pure trivial
  · exact Agree.bind (agree_musigNonceGenInternal h _ _ hpn hr1 hs pk hm cache he) fun _ _ _ =>
      Agree.pure trivial

theorem agree_musigNonceGenCounter {c c' : Ctx} (h : SameKind c c')
    {n n' pn pn' k k' m m' e e' : Option (List UInt8)} (hn : SameShape n n') (hpn : SameShape pn pn')
    (cnt cnt' : UInt64) (hk : SameShape k k') (hpk : k.map (List.drop 32) = k'.map (List.drop 32))
    (hm : SameShape m m') (cache : Option (List UInt8)) (he : SameShape e e') :
    Agree (fun _ _ => True) (musigNonceGenCounter c n pn cnt k m cache e)
      (musigNonceGenCounter c' n' pn' cnt' k' m' cache e') := by
  unfold musigNonceGenCounter
  obtain ⟨rfl, rfl⟩ | ⟨x, y, rfl, rfl, _⟩ := hn.cases
  · exact Agree.bind (Agree.branch rfl) fun _ _ _ => Agree.pure trivial
  obtain ⟨rfl, rfl⟩ | ⟨k, k', rfl, rfl, hk1⟩ := hk.cases
  · exact Agree.bind (Agree.branch rfl) fun _ _ _ => Agree.bind (Agree.branch rfl) fun _ _ _ =>
      Agree.pure trivial
  have e1 : Model.keypairPub (some (zeros 64)) (some k') = Model.keypairPub (some (zeros 64)) (some k) := by
    have : k.drop 32 = k'.drop 32 := Option.some.inj hpk
    simp only [Model.keypairPub, this]
  have e2 : SameShape (Model.keypairSec (some (zeros 32)) (some k)).val
      (Model.keypairSec (some (zeros 32)) (some k')).val := by
    have : (k.take 32).length = (k'.take 32).length := take_len _ hk1
    refine congrArg some ?_
    simp only [put, List.length_append, List.length_take, List.length_drop] at this ⊢
    rw [hk1]
  dsimp only
  rw [e1]
  refine Agree.bind (Agree.branch rfl) fun _ _ _ => Agree.bind (Agree.branch rfl) fun _ _ _ => ?_
  refine Agree.bind (agree_musigNonceGenInternal h _ _ hpn (by simp [Spec.beBytes]) e2 _ hm cache he)
    fun a b e => ?_
  exact Agree.bind (Agree.branch (by rw [e])) fun _ _ _ => Agree.pure trivial

/-! ## Partial signatures -/

theorem memcmpVar_take {a b : List UInt8} (c : List UInt8) (k : Nat) (h : a.take k = b.take k) :
    Model.memcmpVar a c k = Model.memcmpVar b c k := by
  induction k generalizing a b c with
  | zero => rfl
  | succ k ih =>
    have h1 : a.headD 0 = b.headD 0 := by
      cases a <;> cases b <;> simp_all
    have h2 : a.tail.take k = b.tail.take k := by
      cases a <;> cases b <;> simp_all
    simp only [Model.memcmpVar, h1, ih _ h2]

theorem agree_secnonceLoad {a b : List UInt8} (h1 : a.take 4 = b.take 4) (h2 : a.drop 68 = b.drop 68) :
    Agree (fun x y => x.map (fun t => t.2.2) = y.map fun t => t.2.2) (secnonceLoad a) (secnonceLoad b) := by
  unfold secnonceLoad
  rw [← h1, ← h2, memcmpVar_take _ _ h1]
  refine Agree.bind (Same.vartime rfl rfl).agree fun x x' e => ?_
  subst e
  refine Agree.bind (Agree.branch rfl) fun _ _ e => Agree.ite e (fun _ => Agree.pure rfl) fun _ => ?_
  refine Agree.bind (Agree.declassify _ _) fun _ _ e => ?_
  exact Agree.bind (Agree.branch (toNat_inj' e)) fun _ _ e => Agree.ite e (fun _ => Agree.pure rfl)
    fun _ => Agree.pure rfl

theorem agree_partialSignWith {o o' k k' : Option (List UInt8)} (ho : SameShape o o')
    (hk : SameShape k k') (cache session : Option (List UInt8)) (a b a' b' : Fn) (pk : Ge Fp) :
    Agree (fun _ _ => True) (partialSignWith o k cache session a b pk)
      (partialSignWith o' k' cache session a' b' pk) := by
  unfold partialSignWith
  obtain ⟨rfl, rfl⟩ | ⟨o, o', rfl, rfl, _⟩ := ho.cases
  · exact Agree.bind (Agree.branch rfl) fun _ _ _ => Agree.pure trivial
  refine Agree.bind (Agree.branch rfl) fun _ _ _ => ?_
  obtain ⟨rfl, rfl⟩ | ⟨k, k', rfl, rfl, _⟩ := hk.cases
  · exact Agree.bind (Agree.branch rfl) fun _ _ _ => Agree.pure trivial
  refine Agree.bind (Agree.branch rfl) fun _ _ _ => Agree.bind (Agree.branch rfl) fun _ _ _ => ?_
  cases cache with
  | none => exact Agree.pure trivial
  | some cache =>
  refine Agree.bind (Agree.branch rfl) fun _ _ _ => ?_
  cases session with
  | none => exact Agree.pure trivial
  | some session =>
  refine Agree.bind (agree_keypairLoad k k') fun l l' e => ?_
  rw [← e]
  refine Agree.bind (Agree.branch rfl) fun _ _ e => Agree.ite e (fun _ => Agree.pure trivial) fun _ => ?_
  refine Agree.bind (R := fun a b => a = b) (Same.agree ⟨rfl, rfl⟩) fun q q' e => ?_
  subst e
  refine Agree.bind (Agree.branch rfl) fun _ _ e => Agree.ite e (fun _ => Agree.pure trivial) fun _ => ?_
  refine Agree.bind (R := fun a b => a = b) (Same.agree ⟨rfl, rfl⟩) fun c c' e => ?_
  subst e
  cases c with
  | none => exact Agree.pure trivial
  | some c =>
  refine Agree.bind (Agree.branch rfl) fun _ _ _ => ?_
  refine Agree.bind (R := fun a b => a = b) (Same.agree ⟨rfl, rfl⟩) fun mu mu' e => ?_
  refine Agree.bind (R := fun a b => a = b) (Same.agree ⟨rfl, rfl⟩) fun s s' e => ?_
  subst e
  cases s with
  | none => exact Agree.pure trivial
  | some s => exact Agree.bind (Agree.branch rfl) fun _ _ _ => Agree.pure trivial

theorem agree_musigPartialSign {o o' n n' k k' : Option (List UInt8)} (ho : SameShape o o')
    (hn : SameSecnonce n n') (hk : SameShape k k') (cache session : Option (List UInt8)) :
    Agree (fun _ _ => True) (musigPartialSign o n k cache session)
      (musigPartialSign o' n' k' cache session) := by
  unfold musigPartialSign
  obtain ⟨hn1, hn2, hn3⟩ := hn
  obtain ⟨rfl, rfl⟩ | ⟨x, y, rfl, rfl, _⟩ := hn1.cases
  · exact Agree.bind (Agree.branch rfl) fun _ _ _ => Agree.pure trivial
  refine Agree.bind (Agree.branch rfl) fun _ _ _ =>
    Agree.bind (agree_secnonceLoad (Option.some.inj hn2) (Option.some.inj hn3)) fun a b e => ?_
  match a, b with
  | none, none => exact Agree.pure trivial
  | none, some _ => cases e
  | some _, none => cases e
  | some (k0, k1, pk), some (k0', k1', pk') =>
    have e : pk = pk' := Option.some.inj e
    subst e
    exact Agree.bind (agree_partialSignWith ho hk cache session _ _ _ _ pk) fun _ _ _ => Agree.pure trivial

end Secp.Leak
