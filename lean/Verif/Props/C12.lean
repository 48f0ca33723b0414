import Verif.Proof.EcdsaSign
import Verif.Props.C37

/-! # C12: the default nonce function is RFC 6979 with unambiguous inputs -/

namespace Secp
open Model Spec

/-- The seed: key, message modulo `n`, optional data, optional algorithm name. -/
def rfc6979Seed (msg key : Bytes) (algo data : Option Bytes) : Bytes :=
  key ++ beBytes 32 (beNat msg % n) ++ data.getD [] ++ algo.getD []

/-- The output number `i` (from 0) of the generator with this seed, for outputs of 32 bytes. -/
def rfc6979Output (seed : Bytes) (i : ℕ) : Bytes :=
  (drbgOutputs (drbgInit seed) (List.replicate (i + 1) 32)).getLastD []

theorem getLastD_cons_cons {α : Type*} (a b d : α) (l : List α) :
    (a :: b :: l).getLastD d = (b :: l).getLastD d := by
  simp [List.getLastD_eq_getLast?]

theorem rfc6979Loop_eq (k : ℕ) : ∀ (rng : Hash.Rng) (b : Bytes),
    rfc6979Loop (k + 1) rng b =
      (rngOutputs rng (List.replicate (k + 1) 32)).getLastD [] := by
  induction k with
  | zero => intro rng b; rfl
  | succ k ih =>
    intro rng b
    rw [rfc6979Loop, ih]
    conv_rhs => rw [List.replicate_succ, rngOutputs]
    generalize Hash.rngGenerate rng 32 = g
    rw [List.replicate_succ, rngOutputs]
    exact (getLastD_cons_cons _ _ _ _).symm

/-- For every counter below `2^32 - 1` the function returns 1 and the output number `counter` of the
RFC 6979 generator seeded with key, message, data and algorithm name. -/
theorem C12_rfc6979 {msg key : Bytes} (hm : msg.length = 32) (hk : key.length = 32)
    {algo data : Option Bytes} (ha : ∀ a ∈ algo, a.length = 16) (hd : ∀ a ∈ data, a.length = 32)
    {counter : UInt32} (hc : counter.toNat < 2 ^ 32 - 1) :
    nonceFunctionRfc6979 msg key algo data counter =
      some (1, rfc6979Output (rfc6979Seed msg key algo data) counter.toNat) := by
  have hseed : rfc6979Keydata msg key algo data = rfc6979Seed msg key algo data := by
    unfold rfc6979Keydata rfc6979Seed
    have h1 : scGetB32 (scSetB32 msg).1 = beBytes 32 (beNat msg % n) := by
      rw [scGetB32, scSetB32_val, take32 hm]
    cases data <;> cases algo
    · simp [h1, take32 hk]
    · simp [h1, take32 hk, List.take_of_length_le (show _ ≤ 16 by rw [ha _ rfl])]
    · simp [h1, take32 hk, List.take_of_length_le (show _ ≤ 32 by rw [hd _ rfl])]
    · simp [h1, take32 hk, List.take_of_length_le (show _ ≤ 16 by rw [ha _ rfl]),
        List.take_of_length_le (show _ ≤ 32 by rw [hd _ rfl])]
  unfold nonceFunctionRfc6979
  rw [if_neg]
  · simp only
    rw [rfc6979Loop_eq, C37_rfc6979, hseed, rfc6979Output]
  · intro h
    rw [h] at hc
    simp at hc

/-- The default nonce function of signing is this one: a NULL function pointer gives the same
result. -/
theorem C12_default (fuel : ℕ) (ctx : Ctx) (sig msg seckey data : Option Bytes) :
    ecdsaSign fuel ctx sig msg seckey none data =
      ecdsaSign fuel ctx sig msg seckey (some fun _ => nonceFunctionRfc6979) data := rfl

/-- Different arguments give different seeds; in particular different patterns of optional arguments
do.  Only the message modulo `n` counts. -/
theorem C12_seed_injective {m m' k k' : Bytes} {a a' d d' : Option Bytes}
    (hk : k.length = 32) (hk' : k'.length = 32)
    (ha : ∀ x ∈ a, x.length = 16) (ha' : ∀ x ∈ a', x.length = 16)
    (hd : ∀ x ∈ d, x.length = 32) (hd' : ∀ x ∈ d', x.length = 32)
    (h : rfc6979Seed m k a d = rfc6979Seed m' k' a' d') :
    k = k' ∧ beNat m % n = beNat m' % n ∧ d = d' ∧ a = a' := by
  unfold rfc6979Seed at h
  have hl := congrArg List.length h
  simp only [List.length_append, Hash.beBytes_length, hk, hk'] at hl
  have hda : ∀ x : Option Bytes, (∀ y ∈ x, y.length = 32) →
      (x = none ∧ (x.getD []).length = 0) ∨ ((∃ y, x = some y) ∧ (x.getD []).length = 32) := by
    intro x hx
    cases x with
    | none => exact Or.inl ⟨rfl, rfl⟩
    | some y => exact Or.inr ⟨⟨y, rfl⟩, hx y rfl⟩
  have haa : ∀ x : Option Bytes, (∀ y ∈ x, y.length = 16) →
      (x = none ∧ (x.getD []).length = 0) ∨ ((∃ y, x = some y) ∧ (x.getD []).length = 16) := by
    intro x hx
    cases x with
    | none => exact Or.inl ⟨rfl, rfl⟩
    | some y => exact Or.inr ⟨⟨y, rfl⟩, hx y rfl⟩
  have c1 := hda d hd
  have c2 := hda d' hd'
  have c3 := haa a ha
  have c4 := haa a' ha'
  have lend : (d.getD []).length = (d'.getD []).length := by omega
  rw [List.append_assoc, List.append_assoc, List.append_assoc, List.append_assoc] at h
  obtain ⟨e1, h⟩ := List.append_inj h (by rw [hk, hk'])
  obtain ⟨e2, h⟩ := List.append_inj h (by rw [Hash.beBytes_length, Hash.beBytes_length])
  obtain ⟨e3, e4⟩ := List.append_inj h lend
  refine ⟨e1, ?_, ?_, ?_⟩
  · have hb : ∀ x, x % n < 256 ^ 32 := fun x => lt_trans (Nat.mod_lt _ n_pos) n_lt_256
    exact beBytes_inj (hb _) (hb _) e2
  · rcases c1 with ⟨rfl, c1⟩ | ⟨⟨y, rfl⟩, c1⟩ <;> rcases c2 with ⟨rfl, c2⟩ | ⟨⟨y', rfl⟩, c2⟩
    · rfl
    · omega
    · omega
    · rw [show y = y' from e3]
  · rcases c3 with ⟨rfl, c3⟩ | ⟨⟨y, rfl⟩, c3⟩ <;> rcases c4 with ⟨rfl, c4⟩ | ⟨⟨y', rfl⟩, c4⟩
    · rfl
    · omega
    · omega
    · rw [show y = y' from e4]

/-- A 32-byte message and key with data but no algorithm name, attempt 3. -/
example : (List.replicate 32 (5 : UInt8)).length = 32 ∧
    (∀ a ∈ (some (List.replicate 32 (5 : UInt8))), a.length = 32) ∧
    (3 : UInt32).toNat < 2 ^ 32 - 1 := by
  refine ⟨by simp, by simp, by decide⟩

end Secp
