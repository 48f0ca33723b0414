import Verif.Proof.Ecdh

/-! # C21: ECDH agreement

The hash function is an arbitrary function of the old output buffer and the two coordinates (and of
the caller's data, which it may hold in its closure). -/

namespace Secp
open Model Spec

theorem ecdh_valid {Q : Pt} (hQ : Q ≠ 0) (out : Bytes) {a : Bytes} (ha : a.length = 32)
    (h1 : 1 ≤ beNat a) (hn : beNat a < n) (h : EcdhHash) :
    ecdh (some out) (some (keyObject Q)) (some a) (some h) =
      (let S := beNat a • Q
       let r := h out (beBytes 32 (ptX S)) (beBytes 32 (ptY S))
       ⟨if r.1 = 0 then 0 else 1, 0, some r.2⟩) := by
  have hs : ecdhScalar a • Q = beNat a • Q := by
    rw [ecdhScalar, if_pos (by rw [take32 ha]; omega), take32 ha, natCast_smul]
  rw [ecdh_eq hQ, hs, take32 ha, decide_eq_true (show 0 < beNat a ∧ beNat a < n by omega)]
  simp only [ecdhHashOrDefault, Bool.and_true]
  congr 1
  simp only [cInt, decide_eq_true_eq]
  split_ifs <;> simp_all

/-- With keys `a`, `b` and the public keys made from them in any contexts, both parties call the hash
function on the coordinates of `(a b) G` and get the same result. -/
theorem C21_agreement {ctx ctx' : Ctx} (hctx : LiveCtx ctx) (hctx' : LiveCtx ctx') {a b : Bytes}
    (ha : a.length = 32) (hb : b.length = 32) (ha1 : 1 ≤ beNat a) (han : beNat a < n)
    (hb1 : 1 ≤ beNat b) (hbn : beNat b < n) (old old' out : Bytes) (h : EcdhHash)
    {A B : Bytes} (hA : ecPubkeyCreate ctx (some old) (some a) = ⟨1, 0, some A⟩)
    (hB : ecPubkeyCreate ctx' (some old') (some b) = ⟨1, 0, some B⟩) :
    let S := (beNat a * beNat b) • G
    let r := h out (beBytes 32 (ptX S)) (beBytes 32 (ptY S))
    ecdh (some out) (some B) (some a) (some h) = ⟨if r.1 = 0 then 0 else 1, 0, some r.2⟩ ∧
    ecdh (some out) (some A) (some b) (some h) = ⟨if r.1 = 0 then 0 else 1, 0, some r.2⟩ := by
  rw [pubkeyCreate_valid hctx old (by rw [take32 ha]; omega) (by rw [take32 ha]; exact han),
    take32 ha, natCast_smul] at hA
  rw [pubkeyCreate_valid hctx' old' (by rw [take32 hb]; omega) (by rw [take32 hb]; exact hbn),
    take32 hb, natCast_smul] at hB
  have hA := Option.some.inj (congrArg Out.val hA)
  have hB := Option.some.inj (congrArg Out.val hB)
  have nA : beNat a • G ≠ 0 := by
    rw [← natCast_smul]; exact smul_G_ne (cast_ne_zero (by omega) han)
  have nB : beNat b • G ≠ 0 := by
    rw [← natCast_smul]; exact smul_G_ne (cast_ne_zero (by omega) hbn)
  intro S r
  rw [← hA, ← hB, ecdh_valid nB out ha ha1 han, ecdh_valid nA out hb hb1 hbn]
  have e1 : beNat a • beNat b • G = S := by rw [← mul_nsmul']
  have e2 : beNat b • beNat a • G = S := by rw [← mul_nsmul]
  simp only [e1, e2]
  exact ⟨rfl, rfl⟩

/-- With the default hash function (NULL) both get the SHA-256 digest of the compressed encoding of
`(a b) G`, and return 1. -/
theorem C21_default_hash {Q : Pt} (hQ : Q ≠ 0) {out : Bytes} (ho : out.length = 32) {a : Bytes}
    (ha : a.length = 32) (h1 : 1 ≤ beNat a) (hn : beNat a < n) :
    ecdh (some out) (some (keyObject Q)) (some a) none =
      ⟨1, 0, some (sha256 (compressed (beNat a • Q)))⟩ := by
  have := ecdh_valid hQ out ha h1 hn ecdhHashSha256
  simp only [ecdhHashSha256_eq _ ho] at this
  exact this

/-- Two different secret keys, 2 and 3. -/
example : (beBytes 32 2).length = 32 ∧ 1 ≤ beNat (beBytes 32 2) ∧ beNat (beBytes 32 2) < n ∧
    (beBytes 32 3).length = 32 ∧ 1 ≤ beNat (beBytes 32 3) ∧ beNat (beBytes 32 3) < n := by
  decide +kernel

end Secp
