import Verif.Model.Ecdh
import Verif.Proof.KeyApi
import Verif.Proof.EcmultConst

/-! # ECDH -/

namespace Secp
open WeierstrassCurve Model Spec

/-- The scalar that ECDH uses: 1 in place of an invalid one. -/
noncomputable def ecdhScalar (scalar : Bytes) : Fn :=
  if 0 < beNat (scalar.take 32) ∧ beNat (scalar.take 32) < n then
    ((beNat (scalar.take 32) : ℕ) : Fn) else 1

theorem ecdhScalar_ne (scalar : Bytes) : ecdhScalar scalar ≠ 0 := by
  unfold ecdhScalar
  split
  · rename_i h; exact cast_ne_zero h.1 h.2
  · exact one_ne_zero

theorem ecdh_overflow (scalar : Bytes) :
    ((scSetB32 scalar).2 || scIsZero (scSetB32 scalar).1) =
      !decide (0 < beNat (scalar.take 32) ∧ beNat (scalar.take 32) < n) := by
  by_cases h : beNat (scalar.take 32) < n
  · rw [(scSetB32_ok h).1]
    by_cases h0 : beNat (scalar.take 32) = 0
    · rw [(scIsZero_iff _).2 ((scSetB32_zero_iff h).2 h0)]
      simp [h0]
    · have : scIsZero (scSetB32 scalar).1 = false := by
        rw [Bool.eq_false_iff, Ne, scIsZero_iff, scSetB32_zero_iff h]; exact h0
      rw [this]
      simp [h, Nat.pos_of_ne_zero h0]
  · have : (scSetB32 scalar).2 = true := by
      simp only [scSetB32]
      simpa using h
    rw [this]
    simp [h]

theorem ecdh_scalar_eq (scalar : Bytes) :
    scCmov (scSetB32 scalar).1 1 ((scSetB32 scalar).2 || scIsZero (scSetB32 scalar).1) =
      ecdhScalar scalar := by
  rw [ecdh_overflow, ecdhScalar, scCmov]
  by_cases h : 0 < beNat (scalar.take 32) ∧ beNat (scalar.take 32) < n
  · rw [if_pos h, decide_eq_true h]
    rfl
  · rw [if_neg h, decide_eq_false h]
    rfl

theorem fe_bytes {a : Ge Fp} {P : Pt} (h : GeRep 7 a P) (hP : P ≠ 0) :
    feGetB32 (FeOps.normalize a.x) = beBytes 32 (ptX P) ∧
      feGetB32 (FeOps.normalize a.y) = beBytes 32 (ptY P) := by
  have hx := geRep_x h hP
  have hy := geRep_y h hP
  exact ⟨by rw [← hx]; rfl, by rw [← hy]; rfl⟩

/-- ECDH with a valid key object. -/
theorem ecdh_eq {Q : Pt} (hQ : Q ≠ 0) (out scalar : Bytes) (h : Option EcdhHash) :
    ecdh (some out) (some (keyObject Q)) (some scalar) h =
      (let r := ecdhHashOrDefault h out (beBytes 32 (ptX (ecdhScalar scalar • Q)))
          (beBytes 32 (ptY (ecdhScalar scalar • Q)))
       ⟨cInt (r.1 ≠ 0 && decide (0 < beNat (scalar.take 32) ∧ beNat (scalar.take 32) < n)), 0,
        some r.2⟩) := by
  obtain ⟨h1, h2, -⟩ := pubkeyLoad_obj hQ
  have hne : ecdhScalar scalar • Q ≠ 0 := smul_ne_zero' (ecdhScalar_ne scalar) hQ
  have hr := geSetGej_rep (ecmultConst_rep h2 (ecdhScalar scalar))
  obtain ⟨hx, hy⟩ := fe_bytes hr hne
  unfold ecdh
  simp only
  rw [ecdh_scalar_eq, ecdh_overflow, hx, hy, h1, Bool.not_not]
  rfl

theorem u8_parity (a : UInt8) : (a &&& 0x01) ||| 0x02 = if a.toNat % 2 = 1 then 3 else 2 := by
  have : ∀ a : Fin 256, ((UInt8.ofNat a &&& 0x01) ||| 0x02) =
      if (UInt8.ofNat a).toNat % 2 = 1 then 3 else 2 := by decide +kernel
  have h := this ⟨a.toNat, a.toNat_lt⟩
  simpa using h

theorem beBytes_last (y : ℕ) : ((beBytes 32 y).getD 31 0).toNat % 2 = y % 2 := by
  rw [show (32 : ℕ) = 31 + 1 from rfl, beBytes]
  rw [List.getD_eq_getElem?_getD, List.getElem?_append_right (by rw [Hash.beBytes_length])]
  rw [Hash.beBytes_length]
  simp only [Nat.sub_self, List.getElem?_cons_zero, Option.getD_some, UInt8.toNat_ofNat']
  omega

/-- The default hash function hashes the compressed encoding. -/
theorem ecdhHashSha256_eq (P : Pt) {out : Bytes} (ho : out.length = 32) :
    ecdhHashSha256 out (beBytes 32 (ptX P)) (beBytes 32 (ptY P)) = (1, sha256 (compressed P)) := by
  have h1 := Hash.write_absorbed (Hash.write_absorbed (Hash.init_absorbed Hash.uninit Hash.uninit_buf)
    [((beBytes 32 (ptY P)).getD 31 0 &&& 0x01) ||| 0x02]) ((beBytes 32 (ptX P)).take 32)
  have h2 := (Hash.finalize_spec h1).1
  unfold ecdhHashSha256
  simp only
  rw [h2, u8_parity, beBytes_last, take32 (Hash.beBytes_length _ _), List.nil_append,
    put_zero_full (by rw [ho]; exact (Hash.sha_length _).symm), compressed, List.singleton_append]

end Secp
