import Verif.Proof.MusigSession
import Verif.Proof.GroupAll
import Verif.Props.C28
import Verif.Props.C38

/-!
# Proofs about MuSig nonce generation
-/

namespace Secp
open Model Spec

seal keyObject beBytes keysHash compressed

theorem musigAuxMid_ok :
    Hash.toList (Hash.fastCompress Hash.h0 (Hash.fastSha musigAuxTag ++ Hash.fastSha musigAuxTag)) =
      musigAuxMid := by decide +kernel

theorem musigNonceMid_ok :
    Hash.toList (Hash.fastCompress Hash.h0 (Hash.fastSha musigNonceTag ++ Hash.fastSha musigNonceTag)) =
      musigNonceMid := by decide +kernel

theorem zipWith_xor_comm (a b : Bytes) : List.zipWith (· ^^^ ·) a b = List.zipWith (· ^^^ ·) b a := by
  rw [List.zipWith_comm]
  congr 1
  funext x y
  exact UInt8.xor_comm _ _

theorem musigRand_eq {rand : Bytes} (hr : rand.length = 32) {sk : Option Bytes}
    (hs : ∀ s ∈ sk, s.length = 32) : musigRand rand sk = musigMask rand sk := by
  cases sk with
  | none => exact take32 hr
  | some s =>
    unfold musigRand musigMask
    simp only
    rw [midHash musigAuxMid_ok, take32 hr, take32 (hs s rfl), xor32, zipWith_xor_comm]

/-- What `musigNonceHelper` absorbs. -/
theorem nonceHelper_absorbed {sha : Hash.Sha} {m : Bytes} (h : Hash.Absorbed sha m) (k : ℕ) {d : Option Bytes}
    {len : ℕ} (hd : ∀ x ∈ d, x.length = len) :
    Hash.Absorbed (musigNonceHelper sha k d len) (m ++ (zeros (k - 1) ++
      match d with
      | some x => UInt8.ofNat len :: x
      | none => [0])) := by
  unfold musigNonceHelper
  cases d with
  | none =>
    simp only
    rw [← List.append_assoc]
    exact Hash.write_absorbed (Hash.write_absorbed h _) _
  | some x =>
    simp only
    have := Hash.write_absorbed (Hash.write_absorbed (Hash.write_absorbed h (zeros (k - 1)))
      [UInt8.ofNat len]) x
    rw [List.take_of_length_le (by rw [hd x rfl])]
    simpa only [List.append_assoc, List.singleton_append, List.cons_append, List.nil_append] using this

theorem beBytes_8_32 : beBytes 8 32 = zeros 7 ++ [32] := by decide +kernel
theorem beBytes_4_32 : beBytes 4 32 = zeros 3 ++ [32] := by decide +kernel
theorem beBytes_4_0 : beBytes 4 0 = zeros 3 ++ [0] := by decide +kernel

theorem musigNonceK_eq (r : Bytes) {P : Pt} {agg msg ex : Option Bytes} (ha : ∀ x ∈ agg, x.length = 32)
    (hm : ∀ x ∈ msg, x.length = 32) (he : ∀ x ∈ ex, x.length = 32) (i : UInt8) :
    musigNonceK (musigNonceState r msg (compressed P) agg ex) i =
      ((beNat (taggedHash musigNonceTag (musigNonceInput r P agg msg ex i)) : ℕ) : Fn) := by
  have a0 := Hash.write_absorbed (midstate_absorbed Hash.uninit Hash.uninit_buf musigNonceMid_ok) r
  have a1 := nonceHelper_absorbed a0 1 (d := some (compressed P)) (len := 33)
    (by simp [compressed_length])
  have a2 := nonceHelper_absorbed a1 1 ha
  have a3 := Hash.write_absorbed a2 [if msg.isSome then 1 else 0]
  have key : ∀ sha m, Hash.Absorbed sha (sha256 musigNonceTag ++ sha256 musigNonceTag ++ m) →
      m ++ [i] = musigNonceInput r P agg msg ex i →
      (scSetB32 (Hash.finalize (Hash.write sha [i])).1).1 =
        ((beNat (taggedHash musigNonceTag (musigNonceInput r P agg msg ex i)) : ℕ) : Fn) := by
    intro sha m hsha e
    have := (Hash.finalize_spec (Hash.write_absorbed hsha [i])).1
    rw [this, List.append_assoc, e, ← scSetB32_hash]
    rfl
  unfold musigNonceK musigNonceState
  simp only
  cases hmsg : msg with
  | none =>
    rw [hmsg] at a3 key
    have a4 := nonceHelper_absorbed a3 4 he
    simp only [Option.isSome_none, Bool.false_eq_true, if_false] at a4 ⊢
    simp only [List.append_assoc] at a4 key
    refine key _ _ a4 ?_
    unfold musigNonceInput
    cases agg <;> cases ex <;> simp [zeros, beBytes_4_32, beBytes_4_0]
  | some m =>
    rw [hmsg] at a3 key
    have a4 := nonceHelper_absorbed (nonceHelper_absorbed a3 8 (d := some m) (hmsg ▸ hm)) 4 he
    simp only [Option.isSome_some, if_true] at a4 ⊢
    simp only [List.append_assoc] at a4 key
    refine key _ _ a4 ?_
    unfold musigNonceInput
    cases agg <;> cases ex <;> simp [zeros, beBytes_8_32, beBytes_4_32, beBytes_4_0]

theorem nonceFunctionMusig_eq {rand : Bytes} (hr : rand.length = 32) {sk : Option Bytes}
    (hs : ∀ s ∈ sk, s.length = 32) {P : Pt} {agg msg ex : Option Bytes} (ha : ∀ x ∈ agg, x.length = 32)
    (hm : ∀ x ∈ msg, x.length = 32) (he : ∀ x ∈ ex, x.length = 32) :
    nonceFunctionMusig rand msg sk (compressed P) agg ex =
      (musigNonce rand sk P agg msg ex 0, musigNonce rand sk P agg msg ex 1) := by
  unfold nonceFunctionMusig musigNonce
  simp only
  rw [musigRand_eq hr hs, musigNonceK_eq _ ha hm he, musigNonceK_eq _ ha hm he]

theorem nonceGenCore_eq {gen : GenCtx} (hg : GenCtxOk gen) {rand : Bytes} (hr : rand.length = 32)
    {sk : Option Bytes} (hs : ∀ s ∈ sk, s.length = 32) {a : Ge Fp} {P : Pt} (hP : P ≠ 0) (hA : GeRep 7 a P)
    {agg msg ex : Option Bytes} (ha : ∀ x ∈ agg, x.length = 32) (hm : ∀ x ∈ msg, x.length = 32)
    (he : ∀ x ∈ ex, x.length = 32) (h0 : musigNonce rand sk P agg msg ex 0 ≠ 0)
    (h1 : musigNonce rand sk P agg msg ex 1 ≠ 0) (ret : Bool) :
    musigNonceGenCore gen rand sk msg a agg ex ret =
      (if ret then secnonceObject (musigNonce rand sk P agg msg ex 0) (musigNonce rand sk P agg msg ex 1) P
        else List.replicate 132 0,
        pubnonceObject ((musigNonce rand sk P agg msg ex 0).val • G)
          ((musigNonce rand sk P agg msg ex 1).val • G)) := by
  unfold musigNonceGenCore
  simp only
  rw [serialize_compressed hA hP (by simp [zeros]), show (zeros 33).drop 33 = [] by simp [zeros],
    List.append_nil, nonceFunctionMusig_eq hr hs ha hm he]
  simp only
  generalize musigNonce rand sk P agg msg ex 0 = k0 at h0 ⊢
  generalize musigNonce rand sk P agg msg ex 1 = k1 at h1 ⊢
  have hall := geSetAllGej_rep (.cons (ecmultGen_rep hg k0) (.cons (ecmultGen_rep hg k1) .nil))
    (by simpa using ⟨⟨h0, G_ne_zero⟩, h1, G_ne_zero⟩)
  generalize geSetAllGej [ecmultGen gen k0, ecmultGen gen k1] = l at hall ⊢
  obtain ⟨x, l1, hx, hl1, rfl⟩ := List.forall₂_cons_right_iff.1 hall
  obtain ⟨y, l2, hy, -, rfl⟩ := List.forall₂_cons_right_iff.1 hl1
  simp only [List.getD_cons_zero, List.getD_cons_succ]
  rw [pubnonceSave_obj (smul_G_ne h0) (smul_G_ne h1) hx hy, secnonceSave_obj hP hA, val_smul, val_smul]
  have hlen : (secnonceObject k0 k1 P).length = 132 := by
    simp [secnonceObject, beBytes_len, keyObject_length]
  cases ret with
  | true => rfl
  | false =>
    unfold secnonceInvalidate memczero
    rw [hlen]
    rfl

end Secp
