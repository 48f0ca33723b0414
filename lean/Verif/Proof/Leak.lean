import Verif.Model.LeakApi

/-! # Reasoning about observed executions -/

namespace Secp.Leak

variable {α β : Type}

@[simp] theorem val_pure (a : α) : (pure a : Ct α).val = a := rfl
@[simp] theorem val_bind (m : Ct α) (f : α → Ct β) : (m >>= f).val = (f m.val).val := rfl
@[simp] theorem val_branch (b : Bool) : (branch b).val = b := rfl
@[simp] theorem val_vartime (l : List Nat) (a : α) : (vartime l a).val = a := rfl
@[simp] theorem trace_pure (a : α) : (pure a : Ct α).trace = [] := rfl
@[simp] theorem trace_bind (m : Ct α) (f : α → Ct β) :
    (m >>= f).trace = m.trace ++ (f m.val).trace := rfl

theorem val_ite (c : Prop) [Decidable c] (m m' : Ct α) :
    (if c then m else m').val = if c then m.val else m'.val := by split <;> rfl

@[simp high] theorem val_branch_ite (b : Bool) (m m' : Ct α) :
    (branch b >>= fun c => if c = true then m else m').val = if b = true then m.val else m'.val := by
  cases b <;> rfl

/-- Two executions look the same, and their results are related. -/
def Same (R : α → β → Prop) (m : Ct α) (m' : Ct β) : Prop := m.trace = m'.trace ∧ R m.val m'.val

theorem declassified_append (t t' : List Ev) :
    declassified (t ++ t') = declassified t ++ declassified t' := List.filterMap_append

/-- Two executions look the same as long as the values they declassify are the same. -/
def Agree (R : α → β → Prop) (m : Ct α) (m' : Ct β) : Prop :=
  ∀ s s', declassified m.trace ++ s = declassified m'.trace ++ s' →
    m.trace = m'.trace ∧ R m.val m'.val ∧ s = s'

theorem Same.agree {R : α → β → Prop} {m : Ct α} {m' : Ct β} (h : Same R m m') : Agree R m m' := by
  intro s s' e
  rw [h.1] at e
  exact ⟨h.1, h.2, List.append_cancel_left e⟩

theorem Agree.trace_eq {R : α → β → Prop} {m : Ct α} {m' : Ct β} (h : Agree R m m')
    (e : declassified m.trace = declassified m'.trace) : m.trace = m'.trace :=
  (h [] [] (by rw [e])).1

theorem Same.pure {R : α → β → Prop} {a : α} {b : β} (h : R a b) : Same R (pure a) (pure b) := ⟨rfl, h⟩

theorem Same.bind {γ δ : Type} {R : α → β → Prop} {S : γ → δ → Prop} {m : Ct α} {m' : Ct β}
    {f : α → Ct γ} {f' : β → Ct δ} (h : Same R m m') (hf : ∀ a b, R a b → Same S (f a) (f' b)) :
    Same S (m >>= f) (m' >>= f') := by
  obtain ⟨h1, h2⟩ := hf _ _ h.2
  exact ⟨by rw [trace_bind, trace_bind, h.1, h1], h2⟩

theorem Agree.bind {γ δ : Type} {R : α → β → Prop} {S : γ → δ → Prop} {m : Ct α} {m' : Ct β}
    {f : α → Ct γ} {f' : β → Ct δ} (h : Agree R m m') (hf : ∀ a b, R a b → Agree S (f a) (f' b)) :
    Agree S (m >>= f) (m' >>= f') := by
  intro s s' e
  rw [trace_bind, trace_bind, declassified_append, declassified_append, List.append_assoc,
    List.append_assoc] at e
  obtain ⟨h1, h2, h3⟩ := h _ _ e
  obtain ⟨k1, k2, k3⟩ := hf _ _ h2 _ _ h3
  exact ⟨by rw [trace_bind, trace_bind, h1, k1], k2, k3⟩

theorem Same.branch {b b' : Bool} (h : b = b') : Same (fun x y => x = y) (branch b) (branch b') := by
  subst h; exact ⟨rfl, rfl⟩

theorem Same.access {i j : Nat} (h : i = j) : Same (fun _ _ => True) (access i) (access j) := by
  subst h; exact ⟨rfl, trivial⟩

theorem Same.vartime {l l' : List Nat} {a b : α} (h : l = l') (e : a = b) :
    Same (fun x y => x = y) (vartime l a) (vartime l' b) := by
  subst h; exact ⟨rfl, e⟩

theorem Agree.declassify (l l' : List Nat) :
    Agree (fun _ _ => l = l') (declassify l) (declassify l') := by
  intro s s' e
  have e : l :: s = l' :: s' := e
  obtain ⟨rfl, rfl⟩ := List.cons.inj e
  exact ⟨rfl, rfl, rfl⟩

theorem Same.ite {R : α → β → Prop} {b b' : Bool} (h : b = b') {m n : Ct α} {m' n' : Ct β}
    (hm : b = true → Same R m m') (hn : b = false → Same R n n') :
    Same R (if b = true then m else n) (if b' = true then m' else n') := by
  subst h
  cases b
  · exact hn rfl
  · exact hm rfl

theorem Agree.ite {R : α → β → Prop} {b b' : Bool} (h : b = b') {m n : Ct α} {m' n' : Ct β}
    (hm : b = true → Agree R m m') (hn : b = false → Agree R n n') :
    Agree R (if b = true then m else n) (if b' = true then m' else n') := by
  subst h
  cases b
  · exact hn rfl
  · exact hm rfl

theorem Same.mono {R S : α → β → Prop} {m : Ct α} {m' : Ct β} (h : Same R m m')
    (hRS : ∀ a b, R a b → S a b) : Same S m m' := ⟨h.1, hRS _ _ h.2⟩

/-! ## Hashing -/

theorem val_memcpy (buf : List UInt8) (off : Nat) (data : List UInt8) :
    (memcpy buf off data).val = Hash.memcpy buf off data := rfl

theorem val_writeLoop (fuel : Nat) : ∀ s buf bufsize data,
    (writeLoop fuel s buf bufsize data).val = Hash.writeLoop fuel s buf bufsize data := by
  induction fuel with
  | zero => intros; rfl
  | succ f ih =>
    intro s buf bufsize data
    simp only [writeLoop, Hash.writeLoop, val_bind, val_branch, val_ite, decide_eq_true_eq, val_memcpy,
      val_pure, ih]

@[simp] theorem val_write (h : Hash.Sha) (data : List UInt8) : (write h data).val = Hash.write h data := by
  simp only [write, Hash.write, val_bind, val_pure, val_writeLoop]

@[simp] theorem val_finalize (h : Hash.Sha) : (finalize h).val = Hash.finalize h := by
  simp only [finalize, Hash.finalize, val_bind, val_pure, val_write]

@[simp] theorem val_initializeTagged (h : Hash.Sha) (tag : List UInt8) :
    (initializeTagged h tag).val = Hash.initializeTagged h tag := by
  simp only [initializeTagged, Hash.initializeTagged, val_bind, val_write, val_finalize]

@[simp] theorem val_hmacRkey (key : List UInt8) : (hmacRkey key).val = Hash.hmacRkey key := by
  simp only [hmacRkey, Hash.hmacRkey, val_bind, val_branch, val_ite, decide_eq_true_eq, val_pure,
    val_write, val_finalize]

@[simp] theorem val_hmacInitialize (h : Hash.Hmac) (key : List UInt8) :
    (hmacInitialize h key).val = Hash.hmacInitialize h key := by
  simp only [hmacInitialize, Hash.hmacInitialize, val_bind, val_pure, val_write, val_hmacRkey]

theorem val_hmacWrites (ws : List (List UInt8)) : ∀ h : Hash.Hmac,
    (hmacWrites h ws).val = ws.foldl Hash.hmacWrite h := by
  induction ws with
  | nil => intro h; rfl
  | cons w ws ih =>
    intro h
    simp only [hmacWrites, val_bind, ih, List.foldl_cons]
    simp only [hmacWrite, Hash.hmacWrite, val_bind, val_pure, val_write]

@[simp] theorem val_hmacFinalize (h : Hash.Hmac) : (hmacFinalize h).val = Hash.hmacFinalize h := by
  simp only [hmacFinalize, Hash.hmacFinalize, val_bind, val_pure, val_write, val_finalize]

@[simp] theorem val_hmacSeq (k : List UInt8) (ws : List (List UInt8)) :
    (hmacSeq k ws).val = Hash.hmacSeq k ws := by
  simp only [hmacSeq, Hash.hmacSeq, val_bind, val_pure, val_hmacInitialize, val_hmacWrites,
    val_hmacFinalize]

@[simp] theorem val_rngInitialize (key : List UInt8) : (rngInitialize key).val = Hash.rngInitialize key := by
  simp only [rngInitialize, Hash.rngInitialize, val_bind, val_pure, val_hmacSeq]

theorem val_rngLoop (k : List UInt8) (fuel : Nat) : ∀ v outlen,
    (rngLoop k fuel v outlen).val = Hash.rngLoop k fuel v outlen := by
  induction fuel with
  | zero => intros; rfl
  | succ f ih =>
    intro v outlen
    simp only [rngLoop, Hash.rngLoop, val_bind, val_branch, val_ite, decide_eq_true_eq, val_pure,
      val_hmacSeq, ih]

@[simp] theorem val_rngGenerate (rng : Hash.Rng) (outlen : Nat) :
    (rngGenerate rng outlen).val = Hash.rngGenerate rng outlen := by
  simp only [rngGenerate, Hash.rngGenerate, val_bind, val_branch, val_ite, decide_eq_true_eq, val_pure,
    val_hmacSeq, val_rngLoop]
  split <;> rfl

/-! ## Hashing reveals the lengths only -/

/-- The states of two hash objects that an observer cannot tell apart. -/
def ShaEq (h h' : Hash.Sha) : Prop := h.bytes = h'.bytes ∧ h.s.length = 8 ∧ h'.s.length = 8

theorem transform_len (s : List UInt32) (buf : List UInt8) : (Hash.transform s buf).length = 8 := by
  simp [Hash.transform]

theorem same_memcpy {b b' : List UInt8} {o o' : Nat} {d d' : List UInt8} (ho : o = o')
    (hd : d.length = d'.length) : Same (fun _ _ => True) (memcpy b o d) (memcpy b' o' d') :=
  Same.bind (Same.access ho) fun _ _ _ => Same.bind (Same.access hd) fun _ _ _ => Same.pure trivial

theorem same_writeLoop (fuel : Nat) : ∀ {s s' buf buf' bufsize d d'}, s.length = 8 → s'.length = 8 →
    d.length = d'.length →
    Same (fun r r' => r.1.length = 8 ∧ r'.1.length = 8)
      (writeLoop fuel s buf bufsize d) (writeLoop fuel s' buf' bufsize d') := by
  induction fuel with
  | zero => intro s s' buf buf' bufsize d d' hs hs' _; exact Same.pure ⟨hs, hs'⟩
  | succ f ih =>
    intro s s' buf buf' bufsize d d' hs hs' hd
    refine Same.bind (Same.branch (by rw [hd])) fun a b hab => Same.ite hab (fun _ => ?_) fun _ => ?_
    · refine Same.bind (same_memcpy rfl (by simp [hd])) fun x y _ => ?_
      exact ih (transform_len _ _) (transform_len _ _) (by simp [hd])
    · refine Same.bind (Same.branch (by rw [hd])) fun a b hab => Same.ite hab (fun _ => ?_) fun _ => ?_
      · exact Same.bind (same_memcpy rfl hd) fun x y _ => Same.pure ⟨hs, hs'⟩
      · exact Same.pure ⟨hs, hs'⟩

theorem same_write {h h' : Hash.Sha} {d d' : List UInt8} (hh : ShaEq h h') (hd : d.length = d'.length) :
    Same ShaEq (write h d) (write h' d') := by
  unfold write
  rw [← hh.1, ← hd]
  exact Same.bind (same_writeLoop _ hh.2.1 hh.2.2 hd) fun r r' hr => Same.pure ⟨rfl, hr⟩

theorem writeBe32_len (l : List UInt32) : (l.flatMap Hash.writeBe32).length = 4 * l.length := by
  induction l with
  | nil => rfl
  | cons a l ih => rw [List.flatMap_cons, List.length_append, ih]; simp [Hash.writeBe32]; omega

theorem same_finalize {h h' : Hash.Sha} (hh : ShaEq h h') :
    Same (fun r r' => r.1.length = 32 ∧ r'.1.length = 32 ∧ ShaEq r.2 r'.2) (finalize h) (finalize h') := by
  unfold finalize
  rw [← hh.1]
  refine Same.bind (same_write hh rfl) fun a b h1 => Same.bind (same_write h1 rfl) fun a b h2 =>
    Same.pure ⟨?_, ?_, h2.1, rfl, rfl⟩
  · rw [writeBe32_len, h2.2.1]
  · rw [writeBe32_len, h2.2.2]

theorem shaEq_init {h h' : Hash.Sha} : ShaEq (Hash.init h) (Hash.init h') := ⟨rfl, rfl, rfl⟩

theorem same_initializeTagged {h h' : Hash.Sha} {t t' : List UInt8} (ht : t.length = t'.length) :
    Same ShaEq (initializeTagged h t) (initializeTagged h' t') :=
  Same.bind (same_write shaEq_init ht) fun _ _ h1 => Same.bind (same_finalize h1) fun _ _ h2 =>
    Same.bind (same_write shaEq_init (h2.1.trans h2.2.1.symm)) fun _ _ h3 =>
      same_write h3 (h2.1.trans h2.2.1.symm)

theorem same_hmacRkey {k k' : List UInt8} (hk : k.length = k'.length) :
    Same (fun r r' => r.length = r'.length) (hmacRkey k) (hmacRkey k') := by
  unfold hmacRkey
  refine Same.bind (Same.branch (by rw [hk])) fun a b hab => Same.ite hab (fun _ => ?_) fun _ => ?_
  · exact Same.bind (Same.access hk) fun _ _ _ => Same.pure (by simp [hk])
  · exact Same.bind (same_write shaEq_init hk) fun _ _ h1 => Same.bind (same_finalize h1) fun _ _ h2 =>
      Same.pure (by simp [h2.1, h2.2.1])

/-- The same for HMAC objects. -/
def HmacEq (h h' : Hash.Hmac) : Prop := ShaEq h.inner h'.inner ∧ ShaEq h.outer h'.outer

theorem same_hmacInitialize {h h' : Hash.Hmac} {k k' : List UInt8} (hk : k.length = k'.length) :
    Same HmacEq (hmacInitialize h k) (hmacInitialize h' k') :=
  Same.bind (same_hmacRkey hk) fun _ _ h1 => Same.bind (same_write shaEq_init (by simpa using h1))
    fun _ _ h2 => Same.bind (same_write shaEq_init (by simpa using h1)) fun _ _ h3 => Same.pure ⟨h3, h2⟩

theorem same_hmacWrites {ws ws' : List (List UInt8)}
    (hw : List.Forall₂ (fun w w' => w.length = w'.length) ws ws') : ∀ {h h' : Hash.Hmac}, HmacEq h h' →
    Same HmacEq (hmacWrites h ws) (hmacWrites h' ws') := by
  induction hw with
  | nil => intro h h' hh; exact Same.pure hh
  | cons hw _ ih =>
    intro h h' hh
    refine Same.bind (R := HmacEq) ?_ fun _ _ h1 => ih h1
    exact Same.bind (same_write hh.1 hw) fun _ _ h1 => Same.pure ⟨h1, hh.2⟩

theorem same_hmacFinalize {h h' : Hash.Hmac} (hh : HmacEq h h') :
    Same (fun r r' => r.1.length = 32 ∧ r'.1.length = 32) (hmacFinalize h) (hmacFinalize h') :=
  Same.bind (same_finalize hh.1) fun _ _ h1 =>
    Same.bind (same_write hh.2 (h1.1.trans h1.2.1.symm)) fun _ _ h2 =>
      Same.bind (same_finalize h2) fun _ _ h3 => Same.pure ⟨h3.1, h3.2.1⟩

theorem same_hmacSeq {k k' : List UInt8} {ws ws' : List (List UInt8)} (hk : k.length = k'.length)
    (hw : List.Forall₂ (fun w w' => w.length = w'.length) ws ws') :
    Same (fun r r' => r.length = 32 ∧ r'.length = 32) (hmacSeq k ws) (hmacSeq k' ws') :=
  Same.bind (same_hmacInitialize hk) fun _ _ h1 => Same.bind (same_hmacWrites hw h1) fun _ _ h2 =>
    Same.bind (same_hmacFinalize h2) fun _ _ h3 => Same.pure h3

/-- The same for generator objects. -/
def RngEq (r r' : Hash.Rng) : Prop :=
  r.v.length = 32 ∧ r'.v.length = 32 ∧ r.k.length = 32 ∧ r'.k.length = 32 ∧ r.retry = r'.retry

theorem same_rngInitialize {k k' : List UInt8} (hk : k.length = k'.length) :
    Same RngEq (rngInitialize k) (rngInitialize k') := by
  unfold rngInitialize
  refine Same.bind (same_hmacSeq rfl (.cons rfl (.cons rfl (.cons hk .nil)))) fun _ _ h1 =>
    Same.bind (same_hmacSeq (h1.1.trans h1.2.symm) (.cons rfl .nil)) fun _ _ h2 =>
    Same.bind (same_hmacSeq (h1.1.trans h1.2.symm)
      (.cons (h2.1.trans h2.2.symm) (.cons rfl (.cons hk .nil)))) fun _ _ h3 =>
    Same.bind (same_hmacSeq (h3.1.trans h3.2.symm) (.cons (h2.1.trans h2.2.symm) .nil)) fun _ _ h4 =>
      Same.pure ⟨h4.1, h4.2, h3.1, h3.2, rfl⟩

theorem same_rngLoop {k k' : List UInt8} (hk : k.length = k'.length) (fuel : Nat) :
    ∀ {v v' : List UInt8} {outlen : Nat}, v.length = 32 → v'.length = 32 →
    Same (fun r r' => r.1.length = r'.1.length ∧ r.2.length = 32 ∧ r'.2.length = 32)
      (rngLoop k fuel v outlen) (rngLoop k' fuel v' outlen) := by
  induction fuel with
  | zero => intro v v' outlen hv hv'; exact Same.pure ⟨rfl, hv, hv'⟩
  | succ f ih =>
    intro v v' outlen hv hv'
    unfold rngLoop
    refine Same.bind (Same.branch rfl) fun a b hab => Same.ite hab (fun _ => ?_) fun _ => ?_
    · refine Same.bind (same_hmacSeq hk (.cons (hv.trans hv'.symm) .nil)) fun _ _ h1 => ?_
      refine Same.bind (Same.branch rfl) fun a b hab => ?_
      subst hab
      exact Same.bind (Same.access rfl) fun _ _ _ => Same.bind (ih h1.1 h1.2) fun _ _ h2 =>
        Same.pure ⟨by simp [h1.1, h1.2, h2.1], h2.2⟩
    · exact Same.pure ⟨rfl, hv, hv'⟩

theorem same_rngGenerate {r r' : Hash.Rng} (h : RngEq r r') (outlen : Nat) :
    Same (fun o o' => o.1.length = o'.1.length ∧ RngEq o.2 o'.2)
      (rngGenerate r outlen) (rngGenerate r' outlen) := by
  obtain ⟨v, v', k, k', ht⟩ := h
  unfold rngGenerate
  rw [ht]
  refine Same.bind (Same.branch rfl) fun a b hab => Same.ite hab (fun _ => ?_) fun _ => ?_
  · refine Same.bind (same_hmacSeq (k.trans k'.symm) (.cons (v.trans v'.symm) (.cons rfl .nil)))
      fun _ _ h1 => ?_
    refine Same.bind (same_hmacSeq (h1.1.trans h1.2.symm) (.cons (v.trans v'.symm) .nil)) fun _ _ h2 => ?_
    refine Same.bind (R := fun a b => a.1.length = 32 ∧ b.1.length = 32 ∧ a.2.length = 32 ∧ b.2.length = 32)
      (Same.pure ⟨h1.1, h1.2, h2.1, h2.2⟩) ?_
    exact fun a b hab => Same.bind (same_rngLoop (hab.1.trans hab.2.1.symm) _ hab.2.2.1 hab.2.2.2)
      fun _ _ h3 => Same.pure ⟨h3.1, h3.2.1, h3.2.2, hab.1, hab.2.1, rfl⟩
  · refine Same.bind (R := fun a b => a.1.length = 32 ∧ b.1.length = 32 ∧ a.2.length = 32 ∧ b.2.length = 32)
      (Same.pure ⟨k, k', v, v'⟩) ?_
    exact fun a b hab => Same.bind (same_rngLoop (hab.1.trans hab.2.1.symm) _ hab.2.2.1 hab.2.2.2)
      fun _ _ h3 => Same.pure ⟨h3.1, h3.2.1, h3.2.2, hab.1, hab.2.1, rfl⟩

end Secp.Leak
