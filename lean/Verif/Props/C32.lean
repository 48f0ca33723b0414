import Verif.Model.MusigSession
import Verif.Proof.MusigSession

/-! # C32: a MuSig secret nonce signs at most once -/

namespace Secp
open Model Spec

/-- The API calls that take a secret nonce object, here the object with number `i`; all other arguments are
arbitrary. -/
inductive NonceCall where
  | gen (i : ℕ) (ctx : Ctx) (pubnonce rand seckey pubkey msg cache extra : Option Bytes)
  | genCounter (i : ℕ) (ctx : Ctx) (pubnonce : Option Bytes) (cnt : UInt64)
      (keypair msg cache extra : Option Bytes)
  | sign (i : ℕ) (partialSig keypair cache session : Option Bytes)

/-- The return value of a call, in the memory `st` of secret nonce objects, and the memory after it. -/
def NonceCall.exec (st : ℕ → Bytes) : NonceCall → Int × (ℕ → Bytes)
  | .gen i ctx pubnonce rand seckey pubkey msg cache extra =>
    let o := musigNonceGen ctx (some (st i)) pubnonce rand seckey pubkey msg cache extra
    (o.ret, Function.update st i (o.val.1.getD []))
  | .genCounter i ctx pubnonce cnt keypair msg cache extra =>
    let o := musigNonceGenCounter ctx (some (st i)) pubnonce cnt keypair msg cache extra
    (o.ret, Function.update st i (o.val.1.getD []))
  | .sign i partialSig keypair cache session =>
    let o := musigPartialSign partialSig (some (st i)) keypair cache session
    (o.ret, Function.update st i (o.val.2.getD []))

/-- The memory after a sequence of calls. -/
def nonceRun (st : ℕ → Bytes) (calls : List NonceCall) : ℕ → Bytes :=
  calls.foldl (fun st c => (c.exec st).2) st

/-- The call signs with object `i`. -/
def NonceCall.Signs (i : ℕ) : NonceCall → Prop
  | .sign j .. => j = i
  | _ => False

/-- The call generates a nonce into object `i`. -/
def NonceCall.Fills (i : ℕ) : NonceCall → Prop
  | .gen j .. => j = i
  | .genCounter j .. => j = i
  | .sign .. => False

theorem secnonceLoad_zeros (k : ℕ) : secnonceLoad (zeros k) = none := by
  unfold secnonceLoad
  rw [if_pos]
  cases k with
  | zero => decide
  | succ k =>
    rw [zeros, List.replicate_succ]
    unfold secnonceMagic
    rw [memcmpVar]
    simp

theorem nonceGenCore_fail (gen : GenCtx) (rand : Bytes) (seckey msg : Option Bytes) (pk : Ge Fp)
    (agg extra : Option Bytes) {ret : Bool} (h : cInt ret = 0) :
    ∃ j, (musigNonceGenCore gen rand seckey msg pk agg extra ret).1 = zeros j := by
  cases ret with
  | true => exact absurd h (by decide)
  | false => exact ⟨_, rfl⟩

theorem nonceGenInternal_fail (ctx : Ctx) (k : ℕ) (pubnonce : Option Bytes) (rand : Bytes)
    (seckey pubkey msg cache extra : Option Bytes)
    (h : (musigNonceGenInternal ctx (zeros k) pubnonce rand seckey pubkey msg cache extra).ret = 0) :
    ∃ j, (musigNonceGenInternal ctx (zeros k) pubnonce rand seckey pubkey msg cache extra).val.1 = zeros j := by
  revert h
  unfold musigNonceGenInternal
  cases pubnonce with
  | none => exact fun _ => ⟨k, rfl⟩
  | some pn =>
    cases pubkey with
    | none => exact fun _ => ⟨k, rfl⟩
    | some pk =>
      simp only
      split
      · exact fun _ => ⟨k, rfl⟩
      · split
        · exact fun _ => ⟨k, rfl⟩
        · split
          · exact fun _ => ⟨k, rfl⟩
          · intro h
            simp only at h ⊢
            exact nonceGenCore_fail _ _ _ _ _ _ _ h

/-- The content of object `i` cannot be used for signing. -/
def Dead (st : ℕ → Bytes) (i : ℕ) : Prop := secnonceLoad (st i) = none

theorem exec_other (st : ℕ → Bytes) (i : ℕ) (c : NonceCall) (h1 : ¬ c.Signs i) (h2 : ¬ c.Fills i) :
    (c.exec st).2 i = st i := by
  cases c with
  | gen j => exact Function.update_of_ne (fun h => h2 h.symm) _ _
  | genCounter j => exact Function.update_of_ne (fun h => h2 h.symm) _ _
  | sign j => exact Function.update_of_ne (fun h => h1 h.symm) _ _

theorem sign_zero (partialSig : Option Bytes) (sn : Bytes) (keypair cache session : Option Bytes) :
    (musigPartialSign partialSig (some sn) keypair cache session).val.2 = some (zeros 132) := by
  unfold musigPartialSign
  simp only
  split <;> rfl

theorem exec_signs_dead (st : ℕ → Bytes) (i : ℕ) (c : NonceCall) (h : c.Signs i) : Dead (c.exec st).2 i := by
  cases c with
  | gen => exact h.elim
  | genCounter => exact h.elim
  | sign j ps kp ca se =>
    cases h
    unfold Dead NonceCall.exec
    simp only
    rw [Function.update_self, sign_zero, Option.getD_some]
    exact secnonceLoad_zeros _

theorem exec_fails_dead (st : ℕ → Bytes) (i : ℕ) (c : NonceCall) (h : c.Fills i) (h0 : (c.exec st).1 = 0) :
    Dead (c.exec st).2 i := by
  cases c with
  | sign => exact h.elim
  | gen j ctx pn rand sk pk msg ca ex =>
    cases h
    unfold NonceCall.exec at h0
    unfold Dead NonceCall.exec
    simp only at h0 ⊢
    rw [Function.update_self]
    unfold musigNonceGen at h0 ⊢
    cases rand with
    | none => exact secnonceLoad_zeros _
    | some rand =>
      simp only at h0 ⊢
      by_cases hz : isZeroArray (rand.take 32) = true
      · rw [if_pos hz, secnonceInvalidate, memczero, if_pos rfl]
        simp only [Option.getD_some]
        exact secnonceLoad_zeros _
      · rw [if_neg hz] at h0 ⊢
        obtain ⟨j, e⟩ := nonceGenInternal_fail _ _ _ _ _ _ _ _ _ h0
        simp only
        rw [e]
        exact secnonceLoad_zeros _
  | genCounter j ctx pn cnt kp msg ca ex =>
    cases h
    unfold NonceCall.exec at h0
    unfold Dead NonceCall.exec
    simp only at h0 ⊢
    rw [Function.update_self]
    unfold musigNonceGenCounter at h0 ⊢
    cases kp with
    | none => exact secnonceLoad_zeros _
    | some kp =>
      simp only at h0 ⊢
      have h0' := not_not.1 fun h => absurd h0 (by rw [if_neg h]; decide)
      obtain ⟨j, e⟩ := nonceGenInternal_fail _ _ _ _ _ _ _ _ _ h0'
      rw [e]
      exact secnonceLoad_zeros _

theorem dead_sign_zero (st : ℕ → Bytes) (i : ℕ) (c : NonceCall) (h : c.Signs i) (hd : Dead st i) :
    (c.exec st).1 = 0 := by
  cases c with
  | gen => exact h.elim
  | genCounter => exact h.elim
  | sign j ps kp ca se =>
    cases h
    unfold NonceCall.exec musigPartialSign
    simp only
    rw [show secnonceLoad (st i) = none from hd]

/-- Without a successful generation into it, an unusable object stays unusable. -/
theorem dead_run (i : ℕ) : ∀ (calls : List NonceCall) (st : ℕ → Bytes), Dead st i →
    (∀ a c b, calls = a ++ c :: b → c.Fills i → (c.exec (nonceRun st a)).1 = 0) →
    Dead (nonceRun st calls) i
  | [], _, hd, _ => hd
  | c :: calls, st, hd, h => by
    have hc : Dead (c.exec st).2 i := by
      by_cases h1 : c.Signs i
      · exact exec_signs_dead st i c h1
      · by_cases h2 : c.Fills i
        · exact exec_fails_dead st i c h2 (h [] c calls rfl h2)
        · unfold Dead
          rw [exec_other st i c h1 h2]
          exact hd
    exact dead_run i calls _ hc fun a c' b e hf => h (c :: a) c' b (by rw [e]; rfl) hf

/-- In every history, from every initial memory: if two calls of `secp256k1_musig_partial_sign` on the same
secret nonce object return nonzero, then between them some nonce generation call on that object
succeeded. -/
theorem C32_signs_once (st : ℕ → Bytes) (i : ℕ) (before : List NonceCall) (sign₁ : NonceCall)
    (between : List NonceCall) (sign₂ : NonceCall) (h₁ : sign₁.Signs i) (h₂ : sign₂.Signs i)
    (r₂ : (sign₂.exec (nonceRun st (before ++ sign₁ :: between))).1 ≠ 0) :
    ∃ a c b, between = a ++ c :: b ∧ c.Fills i ∧
      (c.exec (nonceRun st (before ++ sign₁ :: a))).1 ≠ 0 := by
  have split : ∀ l, nonceRun st (before ++ sign₁ :: l) =
      nonceRun (sign₁.exec (nonceRun st before)).2 l := by
    intro l
    unfold nonceRun
    rw [List.foldl_append, List.foldl_cons]
  by_contra hno
  apply r₂
  apply dead_sign_zero _ i _ h₂
  rw [split]
  refine dead_run i between _ (exec_signs_dead _ i _ h₁) fun a c b e hf => ?_
  by_contra hr
  exact hno ⟨a, c, b, e, hf, by rw [split]; exact hr⟩

/-- A call of `secp256k1_musig_partial_sign` with any secret nonce object and any other arguments, NULL
included, leaves the object zeroed, whether it succeeds or not. -/
theorem C32_sign_zeroes (partialSig : Option Bytes) (secnonce : Bytes) (keypair cache session : Option Bytes) :
    (musigPartialSign partialSig (some secnonce) keypair cache session).val.2 =
      some (List.replicate 132 0) :=
  sign_zero _ _ _ _ _

/-- A zeroed secret nonce object is an illegal argument for signing, and no signature is written. -/
theorem C32_zero_rejected (partialSig keypair cache session : Option Bytes) :
    musigPartialSign partialSig (some (List.replicate 132 0)) keypair cache session =
      ⟨0, 1, (partialSig, some (List.replicate 132 0))⟩ := by
  have : secnonceLoad (List.replicate 132 0) = none := secnonceLoad_zeros 132
  unfold musigPartialSign
  simp only
  rw [this]
  rfl

/-- A live object beside the dead one: 1 and 2 as nonces load, the zero object does not. -/
example : ¬ Dead (fun _ => secnonceObject 1 2 G) 0 ∧ Dead (fun _ => List.replicate 132 0) 0 := by
  refine ⟨fun h => ?_, by unfold Dead; decide +kernel⟩
  obtain ⟨a, ha, -⟩ := secnonceLoad_obj (k1 := 1) (k2 := 2) (fun h => absurd h.1 one_ne_zero) G_ne_zero
  rw [Dead, ha] at h
  cases h

end Secp
