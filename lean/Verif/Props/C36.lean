import Verif.Proof.HashEval
import Verif.Model.TaggedSha

/-!
# C36 — SHA-256 streaming equals FIPS 180-4 for every split of the input

The specification is `Spec.sha256` in `Verif/Spec/Sha256.lean`, written from FIPS 180-4 (constants
from the roots of primes, recursive message schedule, padding of the whole message).
-/

namespace Secp
open Hash

/-- Initialising any hash object, writing any sequence of chunks and finalising gives the SHA-256
of the concatenation of the chunks.  (The standard covers messages below 2^61 bytes; beyond that
both sides reduce the length field modulo 2^64.) -/
theorem C36_streaming (h : Sha) (hb : h.buf.length = 64) (chunks : List (List UInt8)) :
    (finalize (chunks.foldl write (init h))).1 = Spec.sha256 chunks.flatten := by
  have := writes_absorbed (init_absorbed h hb) chunks
  rw [List.nil_append] at this
  exact (finalize_spec this).1

/-- The standard vector in three pieces, one of them empty. -/
example : (finalize ([[0x61], [], [0x62, 0x63]].foldl write (init uninit))).1 = Spec.sha256 [0x61, 0x62, 0x63] :=
  C36_streaming uninit (by decide) _

/-- The digest does not depend on how the message is split, nor on what the object held before. -/
theorem C36_split_irrelevant (h h' : Sha) (hb : h.buf.length = 64) (hb' : h'.buf.length = 64)
    (chunks chunks' : List (List UInt8)) (he : chunks.flatten = chunks'.flatten) :
    (finalize (chunks.foldl write (init h))).1 = (finalize (chunks'.foldl write (init h'))).1 := by
  rw [C36_streaming h hb, C36_streaming h' hb', he]

example := C36_split_irrelevant uninit uninit (by decide) (by decide) [[1, 2], [3]] [[], [1], [2, 3]] rfl

/-- A digest always has 32 bytes, and an object can be used again after finalising. -/
theorem C36_reuse (h : Sha) (hb : h.buf.length = 64) (chunks chunks' : List (List UInt8)) :
    (finalize (chunks.foldl write (init h))).1.length = 32 ∧
    (finalize (chunks'.foldl write (init (finalize (chunks.foldl write (init h))).2))).1 =
      Spec.sha256 chunks'.flatten := by
  refine ⟨by rw [C36_streaming h hb, sha_length], C36_streaming _ ?_ _⟩
  have := writes_absorbed (init_absorbed h hb) chunks
  exact (finalize_spec this).2

/-- `secp256k1_tagged_sha256` returns 1 and stores `SHA256 (SHA256 tag ‖ SHA256 tag ‖ msg)`. -/
theorem C36_tagged (old tag msg : List UInt8) :
    taggedSha256 (some old) (some tag) (some msg) = ⟨1, 0, some (Spec.taggedHash tag msg)⟩ := by
  have h1 := initializeTagged_absorbed uninit uninit_buf tag
  have h2 := (finalize_spec (write_absorbed h1 msg)).1
  simp only [taggedSha256, h2, Spec.taggedHash]

/-- With a NULL argument it calls the illegal-argument callback, returns 0 and writes nothing. -/
theorem C36_tagged_null (hash32 tag msg : Option (List UInt8))
    (h : hash32 = none ∨ tag = none ∨ msg = none) :
    taggedSha256 hash32 tag msg = ⟨0, 1, hash32⟩ := by
  rcases hash32 with _ | o <;> rcases tag with _ | t <;> rcases msg with _ | m <;>
    simp_all [taggedSha256, Out.argFail]

example := C36_tagged_null (some [7]) none (some [1]) (Or.inr (Or.inl rfl))

/-- Non-vacuity: the specification gives the published digest of "abc", and an object in any
state with its 64-byte buffer satisfies the hypotheses. -/
example : Spec.sha256 [0x61, 0x62, 0x63] =
    [0xba, 0x78, 0x16, 0xbf, 0x8f, 0x01, 0xcf, 0xea, 0x41, 0x41, 0x40, 0xde, 0x5d, 0xae, 0x22, 0x23,
     0xb0, 0x03, 0x61, 0xa3, 0x96, 0x17, 0x7a, 0x9c, 0xb4, 0x10, 0xff, 0x61, 0xf2, 0x00, 0x15, 0xad]
    ∧ uninit.buf.length = 64 := by
  refine ⟨?_, by simp [uninit]⟩
  rw [fastSha_eq]
  decide +kernel

end Secp
