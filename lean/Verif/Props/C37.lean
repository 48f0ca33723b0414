import Verif.Proof.Hash

/-!
# C37 — HMAC-SHA256 and the RFC 6979 generator follow their standards

Specifications: `Spec.hmac` (RFC 2104) and `Spec.drbgInit / drbgOutput / drbgRetry` (RFC 6979, 3.2)
in `Verif/Spec/Sha256.lean`.
-/

namespace Secp
open Hash

/-- Initialising with a key of any length, writing any chunks and finalising gives
HMAC-SHA256 of the concatenation. -/
theorem C37_hmac (h : Hmac) (hi : h.inner.buf.length = 64) (ho : h.outer.buf.length = 64)
    (key : List UInt8) (chunks : List (List UInt8)) :
    (hmacFinalize (chunks.foldl hmacWrite (hmacInitialize h key))).1 =
      Spec.hmac key chunks.flatten := by
  have := hmacWrites_absorbed (hmacInitialize_absorbed h hi ho key) chunks
  rw [List.nil_append] at this
  exact hmacFinalize_spec this

/-- The outputs of a sequence of requests made to the generator object. -/
def rngOutputs (r : Rng) : List Nat → List (List UInt8)
  | [] => []
  | len :: lens => (rngGenerate r len).1 :: rngOutputs (rngGenerate r len).2 lens

/-- For every seed and every sequence of requested lengths, the outputs are those of the RFC 6979
generator. -/
theorem C37_rfc6979 (seed : List UInt8) (lens : List Nat) :
    rngOutputs (rngInitialize seed) lens = Spec.drbgOutputs (Spec.drbgInit seed) lens := by
  have key : ∀ (lens : List Nat) (r : Rng) (s : Spec.Drbg), RngRep r s →
      rngOutputs r lens = Spec.drbgOutputs s lens := by
    intro lens
    induction lens with
    | nil => intro r s _; rfl
    | cons len lens ih =>
      intro r s h
      obtain ⟨h1, h2⟩ := rngGenerate_spec h len
      rw [rngOutputs, Spec.drbgOutputs, h1, ih _ _ h2]
  exact key lens _ _ (rngInitialize_rep seed)

/-- Every output has the requested length. -/
theorem C37_length (seed : List UInt8) (lens : List Nat) :
    (rngOutputs (rngInitialize seed) lens).map List.length = lens := by
  have hext : ∀ k K V, (Spec.drbgExtend K V k).1.length = 32 * k := by
    intro k
    induction k with
    | zero => intro K V; rfl
    | succ k ih =>
      intro K V
      rw [Spec.drbgExtend]
      simp only [List.length_append, ih, hmac_length]
      omega
  rw [C37_rfc6979]
  generalize Spec.drbgInit seed = s
  induction lens generalizing s with
  | nil => rfl
  | cons len lens ih =>
    rw [Spec.drbgOutputs, List.map_cons, ih, Spec.drbgOutput]
    simp only [List.length_take, hext]
    congr 1
    omega

/-- Non-vacuity: a freshly declared HMAC object satisfies the hypotheses of `C37_hmac`. -/
example : (Hmac.mk uninit uninit).inner.buf.length = 64 ∧
    (Hmac.mk uninit uninit).outer.buf.length = 64 := by simp [uninit]

end Secp
