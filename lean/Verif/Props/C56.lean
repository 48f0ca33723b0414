import Verif.Props.C25

/-! # C56: default Schnorr signing is the algorithm of BIP-340 -/

namespace Secp
open Model Spec

theorem xor_comm_bytes (a b : Bytes) : List.zipWith (· ^^^ ·) a b = List.zipWith (· ^^^ ·) b a := by
  rw [List.zipWith_comm]
  congr 1
  funext x y
  exact UInt8.xor_comm y x

theorem bip340Mask_eq {key : Bytes} (hk : key.length = 32) {aux : Bytes} (ha : aux.length = 32) :
    bip340Mask key (some aux) = List.zipWith (· ^^^ ·) key (taggedHash auxTag aux) := by
  simp only [bip340Mask, xor32]
  rw [midHash auxMid_ok, take32 ha, take32 hk, xor_comm_bytes]

theorem bip340Mask_none {key : Bytes} (hk : key.length = 32) :
    bip340Mask key none = List.zipWith (· ^^^ ·) key (taggedHash auxTag (List.replicate 32 0)) := by
  simp only [bip340Mask, xor32]
  rw [zeroMask_ok, take32 hk]

theorem algo_match (algo : Bytes) :
    (algo.length = 13 ∧ memcmpVar algo bip340Algo algo.length = 0) ↔ algo = nonceTag := by
  constructor
  · rintro ⟨h1, h2⟩
    rw [h1] at h2
    exact (memcmpVar_lt h1 rfl).2.1.1 h2
  · rintro rfl
    exact ⟨rfl, by decide⟩

/-- `secp256k1_nonce_function_bip340` with any algorithm name: the tagged hash, with the name as tag,
of the masked key, the public key and the message; without auxiliary data the mask is that of 32 zero
bytes.  The precomputed states and the precomputed mask are those of the tags. -/
theorem C56_nonce_function (msg : Bytes) {key pk : Bytes} (hk : key.length = 32) (hp : pk.length = 32)
    (algo : Bytes) {aux : Option Bytes} (ha : ∀ a, aux = some a → a.length = 32) :
    nonceFunctionBip340 msg key pk (some algo) aux =
      (1, taggedHash algo (List.zipWith (· ^^^ ·) key
        (taggedHash auxTag (aux.getD (List.replicate 32 0))) ++ pk ++ msg)) := by
  have hm : bip340Mask key aux = List.zipWith (· ^^^ ·) key
      (taggedHash auxTag (aux.getD (List.replicate 32 0))) := by
    cases aux with
    | none => exact bip340Mask_none hk
    | some a => exact bip340Mask_eq hk (ha a rfl)
  unfold nonceFunctionBip340
  simp only
  rw [hm, take32 hp]
  by_cases h : algo = nonceTag
  · rw [if_pos ((algo_match algo).2 h), midHash3 nonceMid_ok, h]
  · rw [if_neg (fun e => h ((algo_match algo).1 e))]
    have := (Hash.finalize_spec (Hash.write_absorbed (Hash.write_absorbed (Hash.write_absorbed
      (Hash.initializeTagged_absorbed Hash.uninit Hash.uninit_buf algo)
      (List.zipWith (· ^^^ ·) key (taggedHash auxTag (aux.getD (List.replicate 32 0))))) pk) msg)).1
    rw [this]
    generalize List.zipWith (· ^^^ ·) key (taggedHash auxTag (aux.getD (List.replicate 32 0))) = t
    rw [taggedHash]
    simp only [List.append_assoc]

example := C56_nonce_function [1, 2, 3] (key := zeros 32) (pk := zeros 32) (by simp [zeros]) (by simp [zeros]) nonceTag
  (aux := some (List.replicate 32 1)) (by simp)

/-- It fails without an algorithm name. -/
theorem C56_nonce_function_null (msg key pk : Bytes) (aux : Option Bytes) :
    (nonceFunctionBip340 msg key pk none aux).1 = 0 := rfl

/-- `secp256k1_schnorrsig_sign32` on a keypair that holds `d`: with `d'` the secret key of the even-y
point, `k` the nonce of BIP-340 and `k'` the secret nonce of the even-y point, the signature is that of
BIP-340; NULL auxiliary data stand for 32 zero bytes.  If the nonce is zero modulo `n` signing fails. -/
theorem C56_sign32 {ctx : Ctx} (hctx : LiveCtx ctx) {old : Bytes} (ho : old.length = 64) {msg : Bytes}
    (hm : msg.length = 32) {d : Fn} (hd : d ≠ 0) {aux : Option Bytes}
    (ha : ∀ a, aux = some a → a.length = 32) :
    let d' := if ptY (d.val • G) % 2 = 1 then -d else d
    let k : Fn := ((schnorrRand d' (d'.val • G) (aux.getD (List.replicate 32 0)) msg : ℕ) : Fn)
    let k' := if ptY (k.val • G) % 2 = 1 then -k else k
    (k ≠ 0 → schnorrsigSign32 ctx (some old) (some msg) (some (keypairObject d)) aux =
      ⟨1, 0, some (schnorrSig d' k' msg)⟩) ∧
    (k = 0 → schnorrsigSign32 ctx (some old) (some msg) (some (keypairObject d)) aux =
      ⟨0, 0, some (List.replicate 64 0)⟩) := by
  intro d' k k'
  have hmb : msgBytes (some msg) 32 = msg := take32 hm
  have hP : d'.val • G = evenY (d.val • G) := by rw [val_smul]; exact evenKey_smul d
  have hR : k'.val • G = evenY (k.val • G) := by rw [val_smul]; exact evenKey_smul k
  have hnf := C56_nonce_function msg (key := beBytes 32 (evenKey d).val) (pk := xonly (d.val • G))
    (Hash.beBytes_length _ _) (xonly_length _) nonceTag ha
  obtain ⟨c1, c2⟩ := signInternal_obj hctx ho (msg := some msg) (msglen := 32) (Or.inl (by simp)) hd
    (some nonceFunctionBip340) aux
  simp only [Option.getD_some] at c1 c2
  rw [hmb, hnf] at c1 c2
  have hlen : ∀ t m : Bytes, (taggedHash t m).take 32 = taggedHash t m := fun t m =>
    take32 (by rw [taggedHash, Hash.sha_length])
  rw [hlen] at c1 c2
  have hk : ((beNat (taggedHash nonceTag (List.zipWith (· ^^^ ·) (beBytes 32 (evenKey d).val)
      (taggedHash auxTag (aux.getD (List.replicate 32 0))) ++ xonly (d.val • G) ++ msg)) : ℕ) : Fn) = k := by
    show _ = ((schnorrRand d' (d'.val • G) (aux.getD (List.replicate 32 0)) msg : ℕ) : Fn)
    rw [hP, schnorrRand, xonly_evenY]
    rfl
  rw [hk] at c1 c2
  have hs : schnorrSig d' k' msg = xonly (k.val • G) ++ beBytes 32 (evenKey k +
      ((schnorrChallenge (xonly (k.val • G)) (evenY (d.val • G)) msg : ℕ) : Fn) * evenKey d).val := by
    rw [schnorrSig, hP, hR, xonly_evenY]
    rfl
  refine ⟨fun h => ?_, fun h => ?_⟩
  · rw [hs]
    exact c1 ⟨one_ne_zero, h⟩
  · exact c2 (fun h' => h'.2 h)

/-- The same signature without auxiliary data and with 32 zero bytes. -/
theorem C56_null_aux {ctx : Ctx} (hctx : LiveCtx ctx) {old : Bytes} (ho : old.length = 64) {msg : Bytes}
    (hm : msg.length = 32) {kp : Bytes} (hk : KeypairMade kp) :
    schnorrsigSign32 ctx (some old) (some msg) (some kp) none =
      schnorrsigSign32 ctx (some old) (some msg) (some kp) (some (List.replicate 32 0)) := by
  obtain ⟨d, hd, e⟩ := C28_made hk
  rw [e]
  obtain ⟨a1, a2⟩ := C56_sign32 hctx ho hm hd (aux := none) (by simp)
  obtain ⟨b1, b2⟩ := C56_sign32 hctx ho hm hd (aux := some (List.replicate 32 0)) (by simp)
  simp only [Option.getD_none, Option.getD_some] at a1 a2 b1 b2
  by_cases h : ((schnorrRand (if ptY (d.val • G) % 2 = 1 then -d else d)
      ((if ptY (d.val • G) % 2 = 1 then -d else d).val • G) (List.replicate 32 0) msg : ℕ) : Fn) = 0
  · rw [a2 h, b2 h]
  · rw [a1 h, b1 h]

/-- The hypotheses are met by a keypair with secret key 1 in a context of the default build. -/
example : ∃ (ctx : Ctx) (kp : Bytes), LiveCtx ctx ∧ KeypairMade kp ∧
    schnorrsigSign32 ctx (some (List.replicate 64 0)) (some (List.replicate 32 7)) (some kp) none =
      schnorrsigSign32 ctx (some (List.replicate 64 0)) (some (List.replicate 32 7)) (some kp)
        (some (List.replicate 32 0)) := by
  have h := LiveCtx.create (junk := contextStatic comb86) (flags := 1) (Or.inr (Or.inr (Or.inl rfl))) rfl
  exact ⟨_, _, h, keypairMade_one, C56_null_aux h (by simp) (by simp) keypairMade_one⟩

end Secp
