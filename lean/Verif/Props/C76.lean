import Verif.Proof.LaxKey
import Verif.Props.C02
import Verif.Props.C05
import Verif.Props.C07
import Verif.Props.C09
import Verif.Props.C16

/-!
# C76: the lax DER parsers of `contrib`

`LaxSignature W input R S`, `LaxPrivateKey input key` and `ecPrivateKey enc seckey` are in
`Verif/Spec/Lax.lean`.  `W` is `sizeof(size_t)`, so the theorems hold for 32-bit and 64-bit targets.
-/

namespace Secp
open Model
open Secp.Spec

theorem sigObject_zero : sigObject 0 0 = List.replicate 64 0 := by
  unfold sigObject; rw [ZMod.val_zero]; decide +kernel

theorem parseCompact_zeros (old : Bytes) :
    ecdsaSignatureParseCompact (some old) (some (zeros 64)) = ⟨1, 0, some (List.replicate 64 0)⟩ := by
  rw [(C07_parse_compact (input := zeros 64) (by simp [zeros]) old).1
    ⟨by decide +kernel, by decide +kernel⟩]
  have e1 : beNat ((zeros 64).take 32) = 0 := by decide +kernel
  have e2 : beNat ((zeros 64).drop 32) = 0 := by decide +kernel
  rw [e1, e2, Nat.cast_zero, sigObject_zero]

/-- What the lax parser does, in one equation. -/
theorem lax_eq {W : ℕ} (hW : 1 ≤ W) (old input : Bytes) (hl : input.length < 256 ^ W) :
    (∃ R S : ℕ, LaxSignature W input R S ∧ ecdsaSignatureParseDerLax W (some old) input =
      some ⟨1, 0, some (if R < n ∧ S < n then sigObject (R : Fn) (S : Fn) else List.replicate 64 0)⟩) ∨
    ((¬ ∃ R S, LaxSignature W input R S) ∧ ecdsaSignatureParseDerLax W (some old) input =
      some ⟨0, 0, some (List.replicate 64 0)⟩) := by
  unfold ecdsaSignatureParseDerLax
  dsimp only
  rw [parseCompact_zeros]
  dsimp only
  have hn : n < 256 ^ 32 := by decide +kernel
  rcases laxNumbers_spec hW input hl with ⟨R, S, h1, h2⟩ | ⟨h1, h2⟩
  · refine Or.inl ⟨R, S, h1, ?_⟩
    rw [h2]
    by_cases hb : R < 256 ^ 32 ∧ S < 256 ^ 32
    · rw [if_pos hb]
      dsimp only
      have e1 : (beBytes 32 R ++ beBytes 32 S).take 32 = beBytes 32 R :=
        List.take_left' (Hash.beBytes_length _ _)
      have e2 : (beBytes 32 R ++ beBytes 32 S).drop 32 = beBytes 32 S :=
        List.drop_left' (Hash.beBytes_length _ _)
      rw [parseCompact_eq (by simp [Hash.beBytes_length]), e1, e2, beNat_beBytes, beNat_beBytes,
        Nat.mod_eq_of_lt hb.1, Nat.mod_eq_of_lt hb.2]
      by_cases hv : R < n ∧ S < n
      · rw [if_pos hv, if_pos hv]
        rfl
      · rw [if_neg hv, if_neg hv]
        dsimp only
        rw [if_neg (by simp), parseCompact_zeros]
        rfl
    · rw [if_neg hb]
      dsimp only
      rw [parseCompact_zeros, if_neg (fun h => hb ⟨lt_trans h.1 hn, lt_trans h.2 hn⟩)]
      rfl
  · refine Or.inr ⟨h2, ?_⟩
    rw [h1]

/-- The lax parser returns 1 exactly on the lax encodings.  The object then holds the two numbers when
both are below `n`, and is zero otherwise. -/
theorem C76_lax_accepts {W : ℕ} (hW : 1 ≤ W) (old : Bytes) {input : Bytes} (hl : input.length < 256 ^ W)
    (obj : Bytes) :
    ecdsaSignatureParseDerLax W (some old) input = some ⟨1, 0, some obj⟩ ↔
      ∃ R S : ℕ, LaxSignature W input R S ∧
        obj = if R < n ∧ S < n then sigObject (R : Fn) (S : Fn) else List.replicate 64 0 := by
  rcases lax_eq hW old input hl with ⟨R, S, h1, h2⟩ | ⟨h1, h2⟩
  · rw [h2]
    constructor
    · intro h
      exact ⟨R, S, h1, by simpa using h.symm⟩
    · rintro ⟨R', S', h3, rfl⟩
      obtain ⟨rfl, rfl⟩ := h1.unique h3
      rfl
  · rw [h2]
    exact ⟨fun h => by simp at h, fun ⟨R, S, h3, _⟩ => absurd ⟨R, S, h3⟩ h1⟩

/-- On every other input it returns 0 and the object is zero. -/
theorem C76_lax_rejects {W : ℕ} (hW : 1 ≤ W) (old : Bytes) {input : Bytes} (hl : input.length < 256 ^ W) :
    ecdsaSignatureParseDerLax W (some old) input = some ⟨0, 0, some (List.replicate 64 0)⟩ ↔
      ¬ ∃ R S : ℕ, LaxSignature W input R S := by
  rcases lax_eq hW old input hl with ⟨R, S, h1, h2⟩ | ⟨h1, h2⟩
  · rw [h2]
    exact ⟨fun h => by simp at h, fun h => absurd ⟨R, S, h1⟩ h⟩
  · exact ⟨fun _ => h1, fun _ => h2⟩

/-- It never reads outside the input (`none` in the model). -/
theorem C76_lax_no_overread {W : ℕ} (hW : 1 ≤ W) (old : Bytes) {input : Bytes}
    (hl : input.length < 256 ^ W) : ecdsaSignatureParseDerLax W (some old) input ≠ none := by
  rcases lax_eq hW old input hl with ⟨R, S, h1, h2⟩ | ⟨h1, h2⟩ <;> rw [h2] <;> simp

/-- "If parsing failed or the encoded numbers are out of range, signature validation with it is
guaranteed to fail for every message and public key." -/
theorem C76_lax_fails_closed {W : ℕ} (hW : 1 ≤ W) (old : Bytes) {input : Bytes}
    (hl : input.length < 256 ^ W) (h : ¬ ∃ R S : ℕ, LaxSignature W input R S ∧ R < n ∧ S < n) :
    ∃ ret obj, ecdsaSignatureParseDerLax W (some old) input = some ⟨ret, 0, some obj⟩ ∧
      ∀ (Q : Pt) (msg : Bytes), Q ≠ 0 → msg.length = 32 →
        ecdsaVerify (some obj) (some msg) (some (keyObject Q)) = ⟨0, 0, ()⟩ := by
  have key : ∀ (Q : Pt) (msg : Bytes), Q ≠ 0 → msg.length = 32 →
      ecdsaVerify (some (List.replicate 64 0)) (some msg) (some (keyObject Q)) = ⟨0, 0, ()⟩ := by
    intro Q msg hQ hm
    rw [← sigObject_zero, C09_verify_rejects hQ 0 0 hm]
    rintro ⟨hv, -⟩
    exact hv.1 rfl
  rcases lax_eq hW old input hl with ⟨R, S, h1, h2⟩ | ⟨h1, h2⟩
  · rw [if_neg (fun hv => h ⟨R, S, h1, hv⟩)] at h2
    exact ⟨1, _, h2, key⟩
  · exact ⟨0, _, h2, key⟩

theorem DerLength.header {l : Bytes} {len : ℕ} (h : DerLength l len) : LaxHeader l := by
  rcases h with ⟨h1, rfl⟩ | ⟨-, c, h2, -, rfl, -⟩
  · exact Or.inl ⟨_, by rw [toNat_ofNat' (by omega)]; exact h1, rfl⟩
  · exact Or.inr ⟨c, by omega, rfl⟩

theorem DerLength.lax {W : ℕ} {l : Bytes} {len : ℕ} (h : DerLength l len) (hl : len < 256 ^ (W - 1)) :
    LaxLength W l len := by
  rcases h with h | ⟨-, c, h2, -, rfl, h3⟩
  · exact Or.inl h
  · exact Or.inr ⟨hl, c, by omega, rfl, h3⟩

theorem twos_nonneg {c : Bytes} (h : 0 ≤ twosComplement c) : (beNat c : ℤ) = twosComplement c := by
  unfold twosComplement at h ⊢
  split
  · rename_i h1
    rw [if_pos h1] at h
    have h2 := beNat_lt c
    have : (beNat c : ℤ) < 256 ^ c.length := by exact_mod_cast h2
    omega
  · rfl

theorem lax_of_der {W : ℕ} {input : Bytes} (hl : input.length < 256 ^ (W - 1)) {R S : ℤ}
    (h : DerSignature input R S) : ∃ R' S' : ℕ, LaxSignature W input R' S' ∧
      (0 ≤ R → (R' : ℤ) = R) ∧ (0 ≤ S → (S' : ℤ) = S) := by
  obtain ⟨l, a, b, ⟨la, ca, h1, -, h3, rfl⟩, ⟨lb, cb, h4, -, h6, rfl⟩, h7, rfl⟩ := h
  have e1 : ca.length < 256 ^ (W - 1) := lt_of_le_of_lt (by simp; omega) hl
  have e2 : cb.length < 256 ^ (W - 1) := lt_of_le_of_lt (by simp; omega) hl
  refine ⟨beNat ca, beNat cb, ⟨l, la, ca, lb, cb, [], DerLength.header h7, DerLength.lax h1 e1,
    DerLength.lax h4 e2, by simp, rfl, rfl⟩, ?_, ?_⟩
  · rintro hR; subst h3; exact twos_nonneg hR
  · rintro hS; subst h6; exact twos_nonneg hS

/-- The lax parser accepts every DER signature, and both parsers read the same numbers when they are in
range. -/
theorem C76_lax_extends_der {W : ℕ} (hW : 1 ≤ W) (old old' : Bytes) {input : Bytes}
    (hl : input.length < 256 ^ (W - 1)) (h64 : input.length < 2 ^ 64) {R S : ℤ} (h : DerSignature input R S) :
    (∃ obj, ecdsaSignatureParseDerLax W (some old) input = some ⟨1, 0, some obj⟩) ∧
      (0 ≤ R ∧ R < n → 0 ≤ S ∧ S < n →
        ecdsaSignatureParseDerLax W (some old) input = some ⟨1, 0, some (sigObject (R : Fn) (S : Fn))⟩ ∧
        ecdsaSignatureParseDer (some old') (some input) = some ⟨1, 0, some (sigObject (R : Fn) (S : Fn))⟩) := by
  have hlW : input.length < 256 ^ W := lt_of_lt_of_le hl (Nat.pow_le_pow_right (by norm_num) (by omega))
  obtain ⟨R', S', h1, h2, h3⟩ := lax_of_der hl h
  refine ⟨⟨_, (C76_lax_accepts hW old hlW _).2 ⟨R', S', h1, rfl⟩⟩, fun hR hS => ⟨?_, ?_⟩⟩
  · rw [C76_lax_accepts hW old hlW]
    have e1 := h2 hR.1
    have e2 := h3 hS.1
    refine ⟨R', S', h1, ?_⟩
    rw [if_pos ⟨by omega, by omega⟩, ← e1, ← e2, Int.cast_natCast, Int.cast_natCast]
  · rw [C05_parse_der_accepts h64]
    exact ⟨R, S, h, by rw [if_pos hR, if_pos hS]⟩

theorem import_eq (input : Bytes) :
    (∃ key, LaxPrivateKey input key ∧ ecPrivkeyImportDer input =
      if 1 ≤ beNat key ∧ beNat key < n then some ⟨1, 0, List.replicate (32 - key.length) 0 ++ key⟩
      else some ⟨0, 0, List.replicate 32 0⟩) ∨
    ((¬ ∃ key, LaxPrivateKey input key) ∧ ecPrivkeyImportDer input = some ⟨0, 0, List.replicate 32 0⟩) := by
  unfold ecPrivkeyImportDer
  rcases import_spec input with ⟨key, h1, h2⟩ | ⟨h1, h2⟩
  · refine Or.inl ⟨key, h1, ?_⟩
    rw [h2]
    dsimp only
    have hk : key.length ≤ 32 := by obtain ⟨_, _, _, h, _⟩ := h1; exact h
    have hlen : (List.replicate (32 - key.length) (0 : UInt8) ++ key).length = 32 := by simp; omega
    have hv := C16_seckey_verify hlen
    rw [beNat_replicate] at hv
    have hn := n_pos
    by_cases hc : 1 ≤ beNat key ∧ beNat key < n
    · rw [if_pos hc, hv.1.2 ⟨hc.1, by omega⟩]
      rfl
    · rw [if_neg hc, hv.2.2 (by omega)]
      rfl
  · exact Or.inr ⟨h2, by rw [h1]; rfl⟩

/-- `ec_privkey_import_der` returns 1 exactly on a lax private key that is in range, and writes it padded
to 32 bytes. -/
theorem C76_import_accepts {input out : Bytes} :
    ecPrivkeyImportDer input = some ⟨1, 0, out⟩ ↔
      ∃ key, LaxPrivateKey input key ∧ 1 ≤ beNat key ∧ beNat key < n ∧
        out = List.replicate (32 - key.length) 0 ++ key := by
  rcases import_eq input with ⟨key, h1, h2⟩ | ⟨h1, h2⟩
  · rw [h2]
    constructor
    · intro h
      by_cases hc : 1 ≤ beNat key ∧ beNat key < n
      · rw [if_pos hc] at h
        exact ⟨key, h1, hc.1, hc.2, by simpa using h.symm⟩
      · rw [if_neg hc] at h
        simp at h
    · rintro ⟨key', h3, h4, h5, rfl⟩
      obtain rfl := h1.unique h3
      rw [if_pos ⟨h4, h5⟩]
  · rw [h2]
    exact ⟨fun h => by simp at h, fun ⟨k, hk, _⟩ => absurd ⟨k, hk⟩ h1⟩

/-- In all other cases it returns 0 and writes zeros; it never reads outside the input. -/
theorem C76_import_rejects {input : Bytes}
    (h : ¬ ∃ key, LaxPrivateKey input key ∧ 1 ≤ beNat key ∧ beNat key < n) :
    ecPrivkeyImportDer input = some ⟨0, 0, List.replicate 32 0⟩ := by
  rcases import_eq input with ⟨key, h1, h2⟩ | ⟨h1, h2⟩
  · rw [h2, if_neg (fun hc => h ⟨key, h1, hc⟩)]
  · exact h2

theorem C76_import_no_overread (input : Bytes) : ecPrivkeyImportDer input ≠ none := by
  rcases import_eq input with ⟨key, h1, h2⟩ | ⟨h1, h2⟩
  · rw [h2]; split <;> simp
  · rw [h2]; simp

theorem tlv_eq {tag : UInt8} {c : Bytes} {k : ℕ} (h : c.length = k) {l : Bytes}
    (hl : (if k < 128 then [UInt8.ofNat k] else if k < 256 then [0x81, UInt8.ofNat k]
      else [0x82, UInt8.ofNat (k / 256), UInt8.ofNat (k % 256)]) = l) : tlv tag c = tag :: (l ++ c) := by
  rw [tlv, h, hl]

theorem exported_G : compressed G = 2 :: beBytes 32 gx := by
  unfold compressed G
  rw [ptX_some, ptY_some, if_neg (by decide +kernel), show ((gx : Fp)).val = gx by decide +kernel]

theorem exported_G_full : uncompressed G = 4 :: (beBytes 32 gx ++ beBytes 32 gy) := by
  unfold uncompressed G
  rw [ptX_some, ptY_some, show ((gx : Fp)).val = gx by decide +kernel, show ((gy : Fp)).val = gy by decide +kernel]

theorem ecPrivateKey_compressed {seckey : Bytes} (hl : seckey.length = 32) :
    ecPrivateKey compressed seckey =
      exportBeginC ++ seckey ++ exportMiddleC ++ compressed (beNat seckey • G) := by
  unfold ecPrivateKey
  rw [exported_G]
  generalize hK : tlv 0xA0 _ = K
  have hK2 : K = exportMiddleC.take 136 := by rw [← hK]; decide +kernel
  have hP := compressed_length (beNat seckey • G)
  generalize compressed (beNat seckey • G) = pub at hP
  have hKl : K.length = 136 := by rw [hK2]; decide +kernel
  have e1 : tlv 0x02 [1] = [2, 1, 1] := by decide +kernel
  rw [e1, tlv_eq (tag := 0x04) hl (l := [0x20]) (by decide +kernel),
    tlv_eq (tag := 0x03) (k := 34) (l := [0x22]) (by simp [hP]) (by decide +kernel),
    tlv_eq (tag := 0xA1) (k := 36) (l := [0x24]) (by simp [hP]) (by decide +kernel),
    tlv_eq (tag := 0x30) (k := 211) (l := [0x81, 0xD3]) (by simp [hP, hl, hKl]) (by decide +kernel)]
  have e2 : exportMiddleC = K ++ [0xA1, 0x24, 0x03, 0x22, 0x00] := by rw [hK2]; decide +kernel
  rw [e2]
  simp [exportBeginC]

theorem ecPrivateKey_uncompressed {seckey : Bytes} (hl : seckey.length = 32) :
    ecPrivateKey uncompressed seckey =
      exportBeginU ++ seckey ++ exportMiddleU ++ uncompressed (beNat seckey • G) := by
  unfold ecPrivateKey
  rw [exported_G_full]
  generalize hK : tlv 0xA0 _ = K
  have hK2 : K = exportMiddleU.take 168 := by rw [← hK]; decide +kernel
  have hP := uncompressed_length (beNat seckey • G)
  generalize uncompressed (beNat seckey • G) = pub at hP
  have hKl : K.length = 168 := by rw [hK2]; decide +kernel
  have e1 : tlv 0x02 [1] = [2, 1, 1] := by decide +kernel
  rw [e1, tlv_eq (tag := 0x04) hl (l := [0x20]) (by decide +kernel),
    tlv_eq (tag := 0x03) (k := 66) (l := [0x42]) (by simp [hP]) (by decide +kernel),
    tlv_eq (tag := 0xA1) (k := 68) (l := [0x44]) (by simp [hP]) (by decide +kernel),
    tlv_eq (tag := 0x30) (k := 275) (l := [0x82, 0x01, 0x13]) (by simp [hP, hl, hKl]) (by decide +kernel)]
  have e2 : exportMiddleU = K ++ [0xA1, 0x44, 0x03, 0x42, 0x00] := by rw [hK2]; decide +kernel
  rw [e2]
  simp [exportBeginU]

theorem exportBody_eq {begin middle buf seckey pk enc : Bytes} {k : ℕ} {flags : UInt32}
    (hl : seckey.length = 32) (hb : begin.length + 32 + middle.length + k ≤ buf.length)
    (he : enc.length = k)
    (hs : ∀ out : Bytes, k ≤ out.length → ecPubkeySerialize (some out) (some k) (some pk) flags =
      ⟨1, 0, (some (enc ++ out.drop k), some k)⟩) :
    exportBody begin middle k flags buf seckey pk =
      some (0, begin ++ seckey ++ middle ++ enc ++ buf.drop (begin.length + 32 + middle.length + k),
        begin.length + 32 + middle.length + k) := by
  unfold exportBody
  rw [if_neg (by omega)]
  dsimp only
  have p1 : put buf 0 begin = begin ++ buf.drop begin.length := by simp [put]
  have hlen : (begin ++ seckey ++ middle).length = begin.length + 32 + middle.length := by
    simp only [List.length_append, hl]
  rw [p1, Nat.zero_add, List.take_of_length_le (by omega), put_at rfl, hl,
    put_at (by rw [List.length_append, hl]), List.drop_left' hlen]
  have hY : (((buf.drop begin.length).drop 32).drop middle.length) =
      buf.drop (begin.length + 32 + middle.length) := by rw [List.drop_drop, List.drop_drop]; congr 1; omega
  rw [hY]
  generalize hYd : buf.drop (begin.length + 32 + middle.length) = Y
  have hYl : Y.length = buf.length - (begin.length + 32 + middle.length) := by rw [← hYd, List.length_drop]
  rw [hs Y (by omega)]
  dsimp only [Option.getD]
  have hnil : Y.drop (enc ++ Y.drop k).length = [] :=
    List.drop_eq_nil_of_le (by rw [List.length_append, List.length_drop]; omega)
  rw [put_at hlen, hnil, List.append_nil, ← List.append_assoc, ← hYd, List.drop_drop]

theorem smul_G_ne_zero {k : ℕ} (h1 : 1 ≤ k) (hn : k < n) : k • G ≠ 0 := by
  intro h
  have e : ((k : ℕ) : Fn) • G = 0 := by
    rw [← val_smul, ZMod.val_natCast, Nat.mod_eq_of_lt hn, h]
  exact smul_G_ne (cast_ne_zero (by omega) hn) e

theorem lenBC : exportBeginC.length = 8 := by decide +kernel
theorem lenMC : exportMiddleC.length = 141 := by decide +kernel
theorem lenBU : exportBeginU.length = 9 := by decide +kernel
theorem lenMU : exportMiddleU.length = 173 := by decide +kernel

/-- `ec_privkey_export_der` on a valid secret key, compressed: 214 bytes, the `ECPrivateKey` of the key.
The rest of the buffer stays as it was. -/
theorem C76_export_compressed {ctx : Ctx} (hctx : LiveCtx ctx) {buf seckey : Bytes} (hb : 214 ≤ buf.length)
    (hl : seckey.length = 32) (h1 : 1 ≤ beNat seckey) (hn : beNat seckey < n) :
    ecPrivkeyExportDer ctx buf seckey true =
      some ⟨1, 0, (ecPrivateKey compressed seckey ++ buf.drop 214, 214)⟩ := by
  unfold ecPrivkeyExportDer
  dsimp only
  rw [C16_pubkey_create hctx _ hl h1 hn, if_neg (by simp), if_pos rfl]
  dsimp only [Option.getD]
  have hP : beNat seckey • G ≠ 0 := smul_G_ne_zero h1 hn
  rw [exportBody_eq (enc := compressed (beNat seckey • G)) hl (by rw [lenBC, lenMC]; exact hb) (compressed_length _) (fun out ho => by
    rw [C02_serialize_compressed hP out le_rfl ho]; simp), ecPrivateKey_compressed hl, lenBC, lenMC]
  rfl

/-- Uncompressed: 279 bytes. -/
theorem C76_export_uncompressed {ctx : Ctx} (hctx : LiveCtx ctx) {buf seckey : Bytes} (hb : 279 ≤ buf.length)
    (hl : seckey.length = 32) (h1 : 1 ≤ beNat seckey) (hn : beNat seckey < n) :
    ecPrivkeyExportDer ctx buf seckey false =
      some ⟨1, 0, (ecPrivateKey uncompressed seckey ++ buf.drop 279, 279)⟩ := by
  unfold ecPrivkeyExportDer
  dsimp only
  rw [C16_pubkey_create hctx _ hl h1 hn, if_neg (by simp), if_neg (by simp)]
  dsimp only [Option.getD]
  have hP : beNat seckey • G ≠ 0 := smul_G_ne_zero h1 hn
  rw [exportBody_eq (enc := uncompressed (beNat seckey • G)) hl (by rw [lenBU, lenMU]; exact hb) (uncompressed_length _) (fun out ho => by
    rw [C02_serialize_uncompressed hP out le_rfl ho]; simp), ecPrivateKey_uncompressed hl, lenBU, lenMU]
  rfl

/-- An invalid secret key: it returns 0, sets the length to 0 and leaves the buffer. -/
theorem C76_export_invalid {ctx : Ctx} (hctx : LiveCtx ctx) (buf : Bytes) {seckey : Bytes}
    (hl : seckey.length = 32) (h : beNat seckey = 0 ∨ n ≤ beNat seckey) (c : Bool) :
    ecPrivkeyExportDer ctx buf seckey c = some ⟨0, 0, (buf, 0)⟩ := by
  unfold ecPrivkeyExportDer
  dsimp only
  rw [C16_pubkey_create_invalid hctx _ hl h, if_pos rfl]

/-- What is exported is imported again: "guaranteed to be parsable by secp256k1_ec_privkey_import_der". -/
theorem C76_export_import {ctx : Ctx} (hctx : LiveCtx ctx) {buf seckey : Bytes} (hb : 279 ≤ buf.length)
    (hl : seckey.length = 32) (h1 : 1 ≤ beNat seckey) (hn : beNat seckey < n) (c : Bool) :
    ∃ out len, ecPrivkeyExportDer ctx buf seckey c = some ⟨1, 0, (out, len)⟩ ∧
      ecPrivkeyImportDer (out.take len) = some ⟨1, 0, seckey⟩ := by
  have fin : seckey = List.replicate (32 - seckey.length) 0 ++ seckey := by rw [hl]; rfl
  cases c
  · refine ⟨_, _, C76_export_uncompressed hctx hb hl h1 hn, ?_⟩
    have hU := ecPrivateKey_uncompressed hl
    have hlen : (ecPrivateKey uncompressed seckey).length = 279 := by
      rw [hU]; simp only [List.length_append, lenBU, lenMU, hl, uncompressed_length]
    rw [List.take_left' hlen, C76_import_accepts]
    refine ⟨seckey, ⟨[0x01, 0x13], exportMiddleU ++ uncompressed (beNat seckey • G), Or.inr rfl, by omega, ?_, ?_⟩,
      h1, hn, fin⟩
    · have : beNat [0x01, 0x13] = 275 := by decide +kernel
      rw [this]
      simp only [List.length_append, List.length_cons, List.length_nil, lenMU, hl, uncompressed_length]; norm_num
    · rw [hU, hl]; simp [exportBeginU]
  · refine ⟨_, _, C76_export_compressed hctx (by omega) hl h1 hn, ?_⟩
    have hU := ecPrivateKey_compressed hl
    have hlen : (ecPrivateKey compressed seckey).length = 214 := by
      rw [hU]; simp only [List.length_append, lenBC, lenMC, hl, compressed_length]
    rw [List.take_left' hlen, C76_import_accepts]
    refine ⟨seckey, ⟨[0xD3], exportMiddleC ++ compressed (beNat seckey • G), Or.inl rfl, by omega, ?_, ?_⟩,
      h1, hn, fin⟩
    · have : beNat [0xD3] = 211 := by decide +kernel
      rw [this]
      simp only [List.length_append, List.length_cons, List.length_nil, lenMC, hl, compressed_length]; norm_num
    · rw [hU, hl]; simp [exportBeginC]

/-- A lax signature that is not DER: a wrong sequence length in three octets, `R = 1` with padding and a
long length, an `S` of length 0, and a byte behind it.  The strict parser rejects it. -/
example : LaxSignature 8 [0x30, 0x82, 0xff, 0xff, 2, 0x83, 0, 0, 3, 0, 0, 1, 2, 0, 0xaa] 1 0 ∧
    ecdsaSignatureParseDerLax 8 (some []) [0x30, 0x82, 0xff, 0xff, 2, 0x83, 0, 0, 3, 0, 0, 1, 2, 0, 0xaa] =
      some ⟨1, 0, some (sigObject 1 0)⟩ ∧
    ecdsaSignatureParseDer (some []) (some [0x30, 0x82, 0xff, 0xff, 2, 0x83, 0, 0, 3, 0, 0, 1, 2, 0, 0xaa]) =
      some ⟨0, 0, some (List.replicate 64 0)⟩ := by
  have h : LaxSignature 8 [0x30, 0x82, 0xff, 0xff, 2, 0x83, 0, 0, 3, 0, 0, 1, 2, 0, 0xaa] 1 0 :=
    ⟨[0x82, 0xff, 0xff], [0x83, 0, 0, 3], [0, 0, 1], [0], [], [0xaa], Or.inr ⟨[0xff, 0xff], by decide, rfl⟩,
      Or.inr ⟨by decide, [0, 0, 3], by decide, rfl, rfl⟩, Or.inl ⟨by decide, rfl⟩, rfl, rfl, rfl⟩
  refine ⟨h, (C76_lax_accepts (by norm_num) [] (by decide +kernel) _).2 ⟨1, 0, h, ?_⟩, by decide +kernel⟩
  rw [if_pos ⟨by decide +kernel, by decide +kernel⟩, Nat.cast_one, Nat.cast_zero]

/-- A length that runs behind the end, and a length of 2^56 on a 64-bit target: rejected. -/
example : ecdsaSignatureParseDerLax 8 (some []) [0x30, 0, 2, 5, 1] = some ⟨0, 0, some (List.replicate 64 0)⟩ ∧
    ecdsaSignatureParseDerLax 8 (some []) [0x30, 0, 2, 0x88, 1, 0, 0, 0, 0, 0, 0, 0, 2] =
      some ⟨0, 0, some (List.replicate 64 0)⟩ := by decide +kernel

/-- A private key of one octet. -/
example : LaxPrivateKey [0x30, 0x81, 0, 2, 1, 1, 4, 1, 7, 9] [7] ∧
    ecPrivkeyImportDer [0x30, 0x81, 0, 2, 1, 1, 4, 1, 7, 9] = some ⟨1, 0, List.replicate 31 0 ++ [7]⟩ := by
  have h : LaxPrivateKey [0x30, 0x81, 0, 2, 1, 1, 4, 1, 7, 9] [7] :=
    ⟨[0], [9], Or.inl rfl, by decide, by decide, rfl⟩
  exact ⟨h, C76_import_accepts.2 ⟨[7], h, by decide +kernel, by decide +kernel, rfl⟩⟩

end Secp
