import Verif.Proof.LeakApi

/-!
# The signing functions and the key exchanges look the same for all secrets
-/

namespace Secp.Leak

open Model (Ge Gej Ctx GenCtx zeros put cInt)

/-! ## ECDSA -/

theorem same_rfc6979Loop (k : Nat) : ∀ {r r' : Hash.Rng} {o o' : List UInt8}, RngEq r r' →
    Same (fun _ _ => True) (rfc6979Loop k r o) (rfc6979Loop k r' o') := by
  induction k with
  | zero => intros; exact Same.bind (Same.branch rfl) fun _ _ _ => Same.pure trivial
  | succ k ih =>
    intro r r' o o' h
    exact Same.bind (Same.branch rfl) fun _ _ _ => Same.bind (same_rngGenerate h 32) fun _ _ h1 => ih h1.2

theorem rfc6979Keydata_len (m m' : List UInt8) {k k' : List UInt8} {a a' d d' : Option (List UInt8)}
    (hk : k.length = k'.length) (ha : SameShape a a') (hd : SameShape d d') :
    (Model.rfc6979Keydata m k a d).length = (Model.rfc6979Keydata m' k' a' d').length := by
  obtain ⟨rfl, rfl⟩ | ⟨x, y, rfl, rfl, hx⟩ := ha.cases <;>
  obtain ⟨rfl, rfl⟩ | ⟨z, w, rfl, rfl, hz⟩ := hd.cases <;>
  simp [Model.rfc6979Keydata, scGetB32_len, *]

theorem constTime_rfc6979 : NonceFn.ConstTime fun _ => nonceFunctionRfc6979 := by
  intro i msg msg' key key' algo algo' data data' attempt hm hk ha hd
  have e1 : data.isSome = data'.isSome := by
    obtain ⟨rfl, rfl⟩ | ⟨x, y, rfl, rfl, hx⟩ := hd.cases <;> rfl
  have e2 : algo.isSome = algo'.isSome := by
    obtain ⟨rfl, rfl⟩ | ⟨x, y, rfl, rfl, hx⟩ := ha.cases <;> rfl
  show Same (fun r r' => r.map (fun r => decide (r.1 = 0)) = r'.map fun r => decide (r.1 = 0))
    (nonceFunctionRfc6979 msg key algo data attempt) (nonceFunctionRfc6979 msg' key' algo' data' attempt)
  unfold nonceFunctionRfc6979
  refine Same.bind (Same.branch e1) fun _ _ _ => Same.bind (Same.branch e2) fun _ _ _ =>
    Same.bind (Same.branch rfl) fun _ _ e => Same.ite e (fun _ => Same.pure rfl) fun _ => ?_
  exact Same.bind (same_rngInitialize (rfc6979Keydata_len _ _ hk ha hd)) fun _ _ h =>
    Same.bind (same_rfc6979Loop _ h) fun _ _ _ => Same.pure rfl

theorem constTime_nonceFnOrDefault {f : Option NonceFn} (h : ∀ g, f = some g → g.ConstTime) :
    (nonceFnOrDefault f).ConstTime := by
  cases f with
  | none => exact constTime_rfc6979
  | some g => exact h g rfl

theorem same_ecdsaSigSign {g g' : GenCtx} (h : g.cfg = g'.cfg) (a b c a' b' c' : Fn) (r : Bool) :
    Same (fun _ _ => True) (ecdsaSigSign g a b c r) (ecdsaSigSign g' a' b' c' r) :=
  Same.bind (same_ecmultGen h _ _) fun _ _ _ => Same.bind (Same.branch rfl) fun _ _ _ =>
    Same.bind (Same.branch rfl) fun _ _ _ => Same.pure trivial

theorem agree_signLoop {g g' : GenCtx} (h : g.cfg = g'.cfg) {f : NonceFn} (hf : f.ConstTime) (r : Bool)
    {m m' k k' : List UInt8} (hm : m.length = m'.length) (hk : k.length = k'.length)
    {d d' : Option (List UInt8)} (hd : SameShape d d') (a b a' b' : Fn) (fuel : Nat) :
    ∀ (i : Nat) (st st' : Model.SignSt),
    Agree (fun x y => x.isSome = y.isSome) (signLoop g f r m k d a b fuel i st)
      (signLoop g' f r m' k' d' a' b' fuel i st') := by
  induction fuel with
  | zero => intros; exact Agree.pure rfl
  | succ fuel ih =>
    intro i st st'
    unfold signLoop
    have hs : Same (fun r r' => r.map (fun r => decide (r.1 = 0)) = r'.map fun r => decide (r.1 = 0))
      (f i m k none d (UInt32.ofNat i)) (f i m' k' none d' (UInt32.ofNat i)) :=
      hf i m m' k k' none none d d' _ hm hk rfl hd
    refine Agree.bind hs.agree fun x y e => ?_
    match x, y with
    | none, none => exact Agree.pure rfl
    | none, some y => cases e
    | some x, none => cases e
    | some (x, o), some (y, o') =>
      refine Agree.bind (Agree.branch (Option.some.inj e)) fun _ _ e => Agree.ite e
        (fun _ => Agree.pure rfl) fun _ => Agree.bind (Agree.declassify _ _) fun _ _ e =>
        Agree.bind (Agree.branch (toNat_inj' e)) fun _ _ e => Agree.ite e (fun _ => ?_) fun _ => ih _ _ _
      refine Agree.bind (same_ecdsaSigSign h _ _ _ _ _ _ r).agree fun _ _ _ =>
        Agree.bind (Agree.declassify _ _) fun _ _ e => Agree.bind (Agree.branch (toNat_inj' e))
        fun _ _ e => Agree.ite e (fun _ => Agree.pure rfl) fun _ => ih _ _ _

theorem agree_ecdsaSignInner (fuel : Nat) {c c' : Ctx} (h : c.gen.cfg = c'.gen.cfg) (r : Bool)
    {m m' k k' : List UInt8} (hm : m.length = m'.length) (hk : k.length = k'.length)
    {f : Option NonceFn} (hf : ∀ g, f = some g → g.ConstTime)
    {d d' : Option (List UInt8)} (hd : SameShape d d') :
    Agree (fun x y => x.isSome = y.isSome) (ecdsaSignInner fuel c r m k f d)
      (ecdsaSignInner fuel c' r m' k' f d') := by
  unfold ecdsaSignInner
  refine Agree.bind (Agree.branch rfl) fun _ _ _ => Agree.bind (Agree.branch rfl) fun _ _ _ =>
    Agree.bind (agree_signLoop h (constTime_nonceFnOrDefault hf) r hm hk hd _ _ _ _ fuel 0 _ _)
    fun x y e => ?_
  match x, y with
  | none, none => exact Agree.pure rfl
  | none, some y => cases e
  | some x, none => cases e
  | some x, some y => exact Agree.bind (Agree.branch rfl) fun _ _ _ => Agree.pure rfl

theorem agree_ecdsaSignWith (save : Model.SignSt → List UInt8) (r : Bool) (fuel : Nat) {c c' : Ctx}
    (h : SameKind c c') {s s' m m' k k' : Option (List UInt8)} (hs : SameShape s s') (hm : SameShape m m')
    (hk : SameShape k k') {f : Option NonceFn} (hf : ∀ g, f = some g → g.ConstTime)
    {d d' : Option (List UInt8)} (hd : SameShape d d') :
    Agree (fun _ _ => True) (ecdsaSignWith save r fuel c s m k f d)
      (ecdsaSignWith save r fuel c' s' m' k' f d') := by
  unfold ecdsaSignWith Model.ecmultGenIsBuilt
  rw [← h.2]
  refine Agree.bind (Agree.branch rfl) fun _ _ e => Agree.ite e (fun _ => Agree.pure trivial) fun _ => ?_
  obtain ⟨rfl, rfl⟩ | ⟨m, m', rfl, rfl, hm1⟩ := hm.cases
  · exact Agree.bind (Agree.branch rfl) fun _ _ _ => Agree.pure trivial
  refine Agree.bind (Agree.branch rfl) fun _ _ _ => ?_
  obtain ⟨rfl, rfl⟩ | ⟨s, s', rfl, rfl, hs1⟩ := hs.cases
  · exact Agree.bind (Agree.branch rfl) fun _ _ _ => Agree.pure trivial
  refine Agree.bind (Agree.branch rfl) fun _ _ _ => ?_
  obtain ⟨rfl, rfl⟩ | ⟨k, k', rfl, rfl, hk1⟩ := hk.cases
  · exact Agree.bind (Agree.branch rfl) fun _ _ _ => Agree.pure trivial
  refine Agree.bind (Agree.branch rfl) fun _ _ _ =>
    Agree.bind (agree_ecdsaSignInner fuel h.1 r hm1 hk1 hf hd) fun x y e => ?_
  match x, y with
  | none, none => exact Agree.pure trivial
  | none, some y => cases e
  | some x, none => cases e
  | some x, some y => exact Agree.pure trivial

/-! ## Schnorr signatures -/

theorem shaEq_mid {s s' : List UInt32} (h : s.length = 8) (h' : s'.length = 8) :
    ShaEq (Model.shaMidstate Hash.uninit s) (Model.shaMidstate Hash.uninit s') := ⟨rfl, h, h'⟩

theorem xor32_len {a b a' b' : List UInt8} (ha : a.length = a'.length) (hb : b.length = b'.length) :
    (Model.xor32 a b).length = (Model.xor32 a' b').length := by
  simp [Model.xor32, ha, hb]

theorem take_len {a b : List UInt8} (k : Nat) (h : a.length = b.length) :
    (a.take k).length = (b.take k).length := by simp [h]

theorem same_bip340Mask {k k' : List UInt8} (hk : k.length = k'.length) {d d' : Option (List UInt8)}
    (hd : SameShape d d') :
    Same (fun a b => a.length = b.length) (bip340Mask k d) (bip340Mask k' d') := by
  obtain ⟨rfl, rfl⟩ | ⟨x, y, rfl, rfl, hx⟩ := hd.cases
  · exact Same.bind (Same.branch rfl) fun _ _ _ => Same.pure (xor32_len (take_len _ hk) rfl)
  · exact Same.bind (Same.branch rfl) fun _ _ _ =>
      Same.bind (same_write (shaEq_mid rfl rfl) (take_len _ hx)) fun _ _ h =>
      Same.bind (same_finalize h) fun _ _ h =>
      Same.pure (xor32_len (h.1.trans h.2.1.symm) (take_len _ hk))

theorem same_bip340Init (a : List UInt8) : Same ShaEq (bip340Init a) (bip340Init a) := by
  refine Same.bind (R := fun x y => x = y) ⟨rfl, rfl⟩ fun x y e => ?_
  subst e
  exact Same.bind (Same.branch rfl) fun _ _ e => Same.ite e (fun _ => Same.pure (shaEq_mid rfl rfl))
    fun _ => same_initializeTagged rfl

theorem constTime_bip340 : NonceHardened.ConstTime nonceFunctionBip340 := by
  intro msg msg' key key' pk algo data data' hm hk hd
  refine (show Same (fun _ _ => True) _ _ from ?_).1
  unfold nonceFunctionBip340
  refine Same.bind (Same.branch rfl) fun _ _ _ => ?_
  cases algo with
  | none => exact Same.pure trivial
  | some algo =>
    exact Same.bind (same_bip340Mask hk hd) fun _ _ h1 => Same.bind (same_bip340Init _) fun _ _ h2 =>
      Same.bind (same_write h2 h1) fun _ _ h3 => Same.bind (same_write h3 rfl) fun _ _ h4 =>
      Same.bind (same_write h4 hm) fun _ _ h5 => Same.bind (same_finalize h5) fun _ _ _ =>
      Same.pure trivial

theorem same_schnorrsigChallenge {r r' m m' p p' : List UInt8} (hr : r.length = r'.length)
    (hm : m.length = m'.length) (hp : p.length = p'.length) :
    Same (fun _ _ => True) (schnorrsigChallenge r m p) (schnorrsigChallenge r' m' p') :=
  Same.bind (same_write (shaEq_mid rfl rfl) (take_len _ hr)) fun _ _ h =>
    Same.bind (same_write h (take_len _ hp)) fun _ _ h => Same.bind (same_write h hm) fun _ _ h =>
    Same.bind (same_finalize h) fun _ _ _ => Same.pure trivial

theorem agree_schnorrsigSignCore {g g' : GenCtx} (h : g.cfg = g'.cfg) {m m' : List UInt8}
    (hm : m.length = m'.length) (k k' : List UInt8) {f : NonceHardened} (hf : f.ConstTime)
    {d d' : Option (List UInt8)} (hd : SameShape d d') :
    Agree (fun _ _ => True) (schnorrsigSignCore g m k f d) (schnorrsigSignCore g' m' k' f d') := by
  unfold schnorrsigSignCore
  refine Agree.bind (agree_keypairLoad k k') fun l l' e => ?_
  rw [← e]
  refine Agree.bind (Agree.branch rfl) fun b b' e => ?_
  subst e
  refine Agree.bind (R := fun _ _ => True) (Same.agree ⟨hf _ _ _ _ _ _ _ _ hm ?_ hd, trivial⟩)
    fun nc nc' _ => ?_
  · rw [scGetB32_len, scGetB32_len]
  refine Agree.bind (same_ecmultGen h _ _).agree fun r r' _ => ?_
  refine Agree.bind (Agree.declassify _ _) fun _ _ e => ?_
  rw [← geNats_inj e]
  refine Agree.bind (R := fun a b => a = b) (Same.agree ⟨rfl, rfl⟩) fun y y' e => ?_
  subst e
  refine Agree.bind (Agree.branch rfl) fun b b' e => ?_
  subst e
  refine Agree.bind (R := fun a b => a = b) (Same.agree ⟨rfl, rfl⟩) fun x x' e => ?_
  subst e
  exact Agree.bind (same_schnorrsigChallenge rfl hm rfl).agree fun _ _ _ => Agree.pure trivial

theorem agree_schnorrsigSignInternal {c c' : Ctx} (h : SameKind c c') {s s' m m' k k' : Option (List UInt8)}
    (hs : SameShape s s') (hm : SameShape m m') (l : Nat) (hk : SameShape k k') {f : Option NonceHardened}
    (hf : ∀ g, f = some g → g.ConstTime) {d d' : Option (List UInt8)} (hd : SameShape d d') :
    Agree (fun _ _ => True) (schnorrsigSignInternal c s m l k f d)
      (schnorrsigSignInternal c' s' m' l k' f d') := by
  have hf' : (f.getD nonceFunctionBip340).ConstTime := by
    cases f with
    | none => exact constTime_bip340
    | some g => exact hf g rfl
  unfold schnorrsigSignInternal Model.ecmultGenIsBuilt
  rw [← h.2]
  refine Agree.bind (Agree.branch rfl) fun _ _ e => Agree.ite e (fun _ => Agree.pure trivial) fun _ => ?_
  obtain ⟨rfl, rfl⟩ | ⟨s, s', rfl, rfl, hs1⟩ := hs.cases
  · exact Agree.bind (Agree.branch rfl) fun _ _ _ => Agree.pure trivial
  have e1 : decide (m = none ∧ l ≠ 0) = decide (m' = none ∧ l ≠ 0) := by
    obtain ⟨rfl, rfl⟩ | ⟨x, y, rfl, rfl, hx⟩ := hm.cases <;> simp
  have e2 : (Model.msgBytes m l).length = (Model.msgBytes m' l).length := by
    obtain ⟨rfl, rfl⟩ | ⟨x, y, rfl, rfl, hx⟩ := hm.cases
    · rfl
    · exact take_len _ hx
  refine Agree.bind (Agree.branch rfl) fun _ _ _ => Agree.bind (Agree.branch e1) fun _ _ e =>
    Agree.ite e (fun _ => Agree.pure trivial) fun _ => ?_
  obtain ⟨rfl, rfl⟩ | ⟨k, k', rfl, rfl, hk1⟩ := hk.cases
  · exact Agree.bind (Agree.branch rfl) fun _ _ _ => Agree.pure trivial
  exact Agree.bind (Agree.branch rfl) fun _ _ _ => Agree.bind (Agree.branch rfl) fun _ _ _ =>
    Agree.bind (agree_schnorrsigSignCore h.1 e2 k k' hf' hd) fun _ _ _ => Agree.pure trivial

/-! ## Key exchange -/

theorem constTime_ecdhHashSha256 : EcdhHash.ConstTime ecdhHashSha256 := by
  intro out out' x x' y y' _ hx _
  refine (show Same (fun _ _ => True) _ _ from ?_).1
  exact Same.bind (same_write shaEq_init rfl) fun _ _ h => Same.bind (same_write h (take_len _ hx))
    fun _ _ h => Same.bind (same_finalize h) fun _ _ _ => Same.pure trivial

theorem feGetB32_len (a : Fp) : (Model.feGetB32 a).length = 32 := by
  simp [Model.feGetB32, Spec.beBytes]

theorem same_ecdh {o o' s s' : Option (List UInt8)} (p : Option (List UInt8)) (ho : SameShape o o')
    (hs : SameShape s s') {f : Option EcdhHash} (hf : ∀ g, f = some g → g.ConstTime) :
    Same (fun _ _ => True) (ecdh o p s f) (ecdh o' p s' f) := by
  have hf' : (ecdhHashOrDefault f).ConstTime := by
    cases f with
    | none => exact constTime_ecdhHashSha256
    | some g => exact hf g rfl
  unfold ecdh
  obtain ⟨rfl, rfl⟩ | ⟨o, o', rfl, rfl, ho1⟩ := ho.cases
  · exact Same.bind (Same.branch rfl) fun _ _ _ => Same.pure trivial
  refine Same.bind (Same.branch rfl) fun _ _ _ => Same.bind (Same.branch rfl) fun _ _ _ => ?_
  cases p with
  | none => exact Same.pure trivial
  | some p =>
    obtain ⟨rfl, rfl⟩ | ⟨s, s', rfl, rfl, hs1⟩ := hs.cases
    · exact Same.bind (Same.branch rfl) fun _ _ _ => Same.pure trivial
    refine Same.bind (Same.branch rfl) fun _ _ _ => Same.bind (Same.branch rfl) fun _ _ _ =>
      Same.bind (same_pubkeyLoad p) fun q q' e => ?_
    subst e
    refine Same.bind (same_ecmultConst _ _ _) fun r r' _ => ?_
    refine Same.bind (R := fun _ _ => True) ⟨hf' _ _ _ _ _ _ ho1 ?_ ?_, trivial⟩ fun _ _ _ =>
      Same.pure trivial <;> rw [feGetB32_len, feGetB32_len]

theorem constTime_ellswiftHashPrefix (data : List UInt8) :
    EllswiftHash.ConstTime (ellswiftHashPrefix data) := by
  intro out out' x x' a b _ hx
  refine (show Same (fun _ _ => True) _ _ from ?_).1
  exact Same.bind (same_write shaEq_init rfl) fun _ _ h => Same.bind (same_write h rfl)
    fun _ _ h => Same.bind (same_write h rfl) fun _ _ h => Same.bind (same_write h (take_len _ hx))
    fun _ _ h => Same.bind (same_finalize h) fun _ _ _ => Same.pure trivial

theorem constTime_ellswiftHashBip324 : EllswiftHash.ConstTime ellswiftHashBip324 := by
  intro out out' x x' a b _ hx
  refine (show Same (fun _ _ => True) _ _ from ?_).1
  exact Same.bind (same_write (shaEq_mid rfl rfl) rfl) fun _ _ h => Same.bind (same_write h rfl)
    fun _ _ h => Same.bind (same_write h (take_len _ hx))
    fun _ _ h => Same.bind (same_finalize h) fun _ _ _ => Same.pure trivial

theorem same_ellswiftXdh {o o' s s' : Option (List UInt8)} (a b : Option (List UInt8))
    (ho : SameShape o o') (hs : SameShape s s') (party : Int) {f : Option EllswiftHash}
    (hf : ∀ g, f = some g → g.ConstTime) :
    Same (fun _ _ => True) (ellswiftXdh o a b s party f) (ellswiftXdh o' a b s' party f) := by
  unfold ellswiftXdh
  obtain ⟨rfl, rfl⟩ | ⟨o, o', rfl, rfl, ho1⟩ := ho.cases
  · exact Same.bind (Same.branch rfl) fun _ _ _ => Same.pure trivial
  refine Same.bind (Same.branch rfl) fun _ _ _ => Same.bind (Same.branch rfl) fun _ _ _ => ?_
  cases a with
  | none => exact Same.pure trivial
  | some a =>
  refine Same.bind (Same.branch rfl) fun _ _ _ => ?_
  cases b with
  | none => exact Same.pure trivial
  | some b =>
  obtain ⟨rfl, rfl⟩ | ⟨s, s', rfl, rfl, hs1⟩ := hs.cases
  · exact Same.bind (Same.branch rfl) fun _ _ _ => Same.pure trivial
  refine Same.bind (Same.branch rfl) fun _ _ _ => Same.bind (Same.branch rfl) fun _ _ _ => ?_
  cases f with
  | none => exact Same.pure trivial
  | some f =>
  refine Same.bind (Same.branch rfl) fun p p' e => ?_
  subst e
  refine Same.bind (Same.vartime rfl rfl) fun x x' e => ?_
  subst e
  refine Same.bind (same_ecmultConstXonly _ _ _ _ _) fun r r' _ => ?_
  refine Same.bind (R := fun _ _ => True) ⟨hf f rfl _ _ _ _ _ _ ho1 ?_, trivial⟩ fun _ _ _ =>
      Same.pure trivial
  rw [feGetB32_len, feGetB32_len]

end Secp.Leak
