import Verif.Props.C40
import Verif.Proof.MusigSession
import Verif.Props.C04

/-! # C40, continued: extrakeys, Schnorr signatures, MuSig -/

namespace Secp
open Model Spec

/-! ## Extrakeys -/

theorem C40_xonly_pubkey_parse (pubkey input : Option Bytes) :
    Reports (pubkey = none ∨ input = none) (Kept pubkey) (xonlyPubkeyParse pubkey input) := by
  cases pubkey <;> cases input <;> simp only [xonlyPubkeyParse] <;> (try split_ifs) <;> leaf

theorem C40_xonly_pubkey_serialize (output pubkey : Option Bytes) :
    Reports (output = none ∨ pubkey = none ∨ ∃ b, pubkey = some b ∧ NoKey b) (Kept output)
      (xonlyPubkeySerialize output pubkey) := by
  cases output <;> cases pubkey <;> simp only [xonlyPubkeySerialize] <;> (try split_ifs) <;> leaf

theorem C40_xonly_pubkey_from_pubkey (xonlyKey : Option Bytes) (parity : Option Int)
    (pubkey : Option Bytes) :
    Reports (xonlyKey = none ∨ pubkey = none ∨ ∃ b, pubkey = some b ∧ NoKey b)
      (fun v => Kept xonlyKey v.1 ∧ KeptNum parity v.2)
      (xonlyPubkeyFromPubkey xonlyKey parity pubkey) := by
  cases xonlyKey <;> cases pubkey <;> simp only [xonlyPubkeyFromPubkey] <;> (try split_ifs) <;> leaf

theorem C40_xonly_pubkey_tweak_add (out key tweak : Option Bytes) :
    Reports (out = none ∨ key = none ∨ tweak = none ∨ ∃ b, key = some b ∧ NoKey b) (Kept out)
      (xonlyPubkeyTweakAdd out key tweak) := by
  cases out <;> cases key <;> cases tweak <;> simp only [xonlyPubkeyTweakAdd] <;> (try split_ifs) <;>
    leaf

theorem C40_xonly_pubkey_tweak_add_check (tweaked : Option Bytes) (parity : Int)
    (key tweak : Option Bytes) :
    Reports (tweaked = none ∨ key = none ∨ tweak = none ∨ ∃ b, key = some b ∧ NoKey b)
      (fun _ => True) (xonlyPubkeyTweakAddCheck tweaked parity key tweak) := by
  cases tweaked <;> cases key <;> cases tweak <;> simp only [xonlyPubkeyTweakAddCheck] <;>
    (try split_ifs) <;> leaf

/-- `secp256k1_xonly_pubkey_cmp` calls the callback once for each key that is NULL or not in its
object. -/
theorem C40_xonly_pubkey_cmp (a b : Option Bytes) :
    (¬ Unreadable a ∧ ¬ Unreadable b → (xonlyPubkeyCmp a b).illegal = 0) ∧
    (Unreadable a ∧ ¬ Unreadable b → (xonlyPubkeyCmp a b).illegal = 1) ∧
    (¬ Unreadable a ∧ Unreadable b → (xonlyPubkeyCmp a b).illegal = 1) ∧
    (Unreadable a ∧ Unreadable b → (xonlyPubkeyCmp a b).illegal = 2) := by
  have h : ∀ k : Option Bytes, (Unreadable k → (xonlyCmpKey k).2 = 1) ∧
      (¬ Unreadable k → (xonlyCmpKey k).2 = 0) := by
    intro k
    have e : (xonlyCmpKey k).2 = (xonlyPubkeySerialize (some (zeros 32)) k).illegal := by
      simp only [xonlyCmpKey]; split <;> rfl
    rw [e]
    rcases C40_xonly_pubkey_serialize (some (zeros 32)) k with ⟨h, h1, -, -⟩ | ⟨h, h1⟩
    · exact ⟨fun _ => h1, fun h' => absurd (by simpa [Unreadable] using h) h'⟩
    · exact ⟨fun h' => absurd (Or.inr h') h, fun _ => h1⟩
  refine ⟨?_, ?_, ?_, ?_⟩ <;> rintro ⟨ha, hb⟩ <;> simp only [xonlyPubkeyCmp] <;>
    simp [ha, hb, (h a).1, (h a).2, (h b).1, (h b).2]

theorem C40_keypair_create (ctx : Ctx) (keypair seckey : Option Bytes) :
    Reports (keypair = none ∨ seckey = none ∨ ecmultGenIsBuilt ctx.gen = false) (Kept keypair)
      (keypairCreate ctx keypair seckey) := by
  cases keypair <;> cases seckey <;> simp only [keypairCreate] <;> (try split_ifs) <;> leaf

theorem C40_keypair_sec (seckey keypair : Option Bytes) :
    Reports (seckey = none ∨ keypair = none) (Kept seckey) (keypairSec seckey keypair) := by
  cases seckey <;> cases keypair <;> simp only [keypairSec] <;> leaf

theorem C40_keypair_pub (pubkey keypair : Option Bytes) :
    Reports (pubkey = none ∨ keypair = none) (Kept pubkey) (keypairPub pubkey keypair) := by
  cases pubkey <;> cases keypair <;> simp only [keypairPub] <;> leaf

theorem C40_keypair_xonly_pub (pubkey : Option Bytes) (parity : Option Int) (keypair : Option Bytes) :
    Reports (pubkey = none ∨ keypair = none ∨ ∃ b, keypair = some b ∧ NoKey (b.drop 32))
      (fun v => Kept pubkey v.1 ∧ KeptNum parity v.2) (keypairXonlyPub pubkey parity keypair) := by
  cases pubkey with
  | none => leaf
  | some p =>
    cases keypair with
    | none => leaf
    | some k =>
      have h := keypairLoadPub_iff k
      simp only [keypairXonlyPub]
      cases hk : (keypairLoadPub k).2
      · exact reports_bad (by simp_all) (by keeps)
      · exact reports_ok (by simp_all)

theorem C40_keypair_xonly_tweak_add (keypair tweak : Option Bytes) :
    Reports (keypair = none ∨ tweak = none ∨ ∃ b, keypair = some b ∧ NoKeypair b) (Kept keypair)
      (keypairXonlyTweakAdd keypair tweak) := by
  cases keypair with
  | none => leaf
  | some k =>
    cases tweak with
    | none => leaf
    | some t =>
      have h := keypairLoad_iff k
      simp only [keypairXonlyTweakAdd]
      cases hk : (keypairLoad k).2.2
      · exact reports_bad (by simp_all) (by keeps)
      · exact Or.inr ⟨by simp_all, rfl⟩

/-! ## Schnorr signatures -/

theorem C40_schnorrsig_sign_internal (ctx : Ctx) (sig msg : Option Bytes) (len : ℕ)
    (keypair : Option Bytes) (f : Option NonceHardened) (data : Option Bytes) :
    Reports (ecmultGenIsBuilt ctx.gen = false ∨ sig = none ∨ (msg = none ∧ len ≠ 0) ∨ keypair = none ∨
        ∃ b, keypair = some b ∧ NoKeypair b)
      (Kept sig) (schnorrsigSignInternal ctx sig msg len keypair f data) := by
  unfold schnorrsigSignInternal
  by_cases hb : ecmultGenIsBuilt ctx.gen = true
  · rw [if_neg (by simp [hb])]
    cases sig with
    | none => leaf
    | some s =>
      by_cases hm : msg = none ∧ len ≠ 0
      · simp only [if_pos hm]; exact reports_arg (Or.inr (Or.inr (Or.inl hm))) (by keeps)
      · simp only [if_neg hm]
        cases keypair with
        | none => leaf
        | some k =>
          have h := keypairLoad_iff k
          cases hk : (keypairLoad k).2.2
          · have e : (schnorrsigSignCore ctx.gen (msgBytes msg len) k (f.getD nonceFunctionBip340) data).1
                = false := by
              simp only [schnorrsigSignCore, hk, Bool.false_and]
            have e2 : ∃ j, (schnorrsigSignCore ctx.gen (msgBytes msg len) k
                (f.getD nonceFunctionBip340) data).2 = zeros j := by
              simp only [schnorrsigSignCore, hk, Bool.false_and, Bool.not_false, memczero, if_true]
              exact ⟨_, rfl⟩
            obtain ⟨j, e2⟩ := e2
            have hn : NoKeypair k := by by_contra w; rw [h.2 w] at hk; cases hk
            simp only [e, e2, hk]
            exact Or.inl ⟨by simp [hn], rfl, rfl, by keeps⟩
          · have hn : ¬ NoKeypair k := h.1 hk
            simp only [hk]
            exact Or.inr ⟨by simp [hn, hb, -not_and, hm], rfl⟩
  · rw [if_pos (by simpa using hb)]
    exact reports_arg (Or.inl (by simpa using hb)) (by keeps)

theorem C40_schnorrsig_sign32 (ctx : Ctx) (sig msg keypair aux : Option Bytes) :
    Reports (ecmultGenIsBuilt ctx.gen = false ∨ sig = none ∨ msg = none ∨ keypair = none ∨
        ∃ b, keypair = some b ∧ NoKeypair b)
      (Kept sig) (schnorrsigSign32 ctx sig msg keypair aux) := by
  have := C40_schnorrsig_sign_internal ctx sig msg 32 keypair (some nonceFunctionBip340) aux
  simpa [schnorrsigSign32] using this

theorem C40_schnorrsig_sign_custom (ctx : Ctx) (sig msg : Option Bytes) (len : ℕ)
    (keypair : Option Bytes) (extra : Option SchnorrExtra) :
    Reports (ecmultGenIsBuilt ctx.gen = false ∨ sig = none ∨ (msg = none ∧ len ≠ 0) ∨ keypair = none ∨
        (∃ b, keypair = some b ∧ NoKeypair b) ∨ ∃ ex, extra = some ex ∧ WrongMagic schnorrMagic ex.magic)
      (Kept sig) (schnorrsigSignCustom ctx sig msg len keypair extra) := by
  cases extra with
  | none => simpa [schnorrsigSignCustom] using C40_schnorrsig_sign_internal ctx sig msg len keypair none none
  | some ex =>
    have h := memcmp4_iff ex.magic schnorrMagic
    simp only [schnorrsigSignCustom]
    by_cases hm : memcmpVar ex.magic schnorrMagic 4 ≠ 0
    · rw [if_pos hm]
      exact reports_arg (Or.inr (Or.inr (Or.inr (Or.inr (Or.inr ⟨ex, rfl, h.1 hm⟩))))) (by keeps)
    · rw [if_neg hm]
      have h' : ¬ WrongMagic schnorrMagic ex.magic := fun w => hm (h.2 w)
      simpa [h'] using C40_schnorrsig_sign_internal ctx sig msg len keypair ex.noncefp ex.ndata

/-- A signature with an encoding out of range makes the function return 0 before it looks at the
key. -/
theorem C40_schnorrsig_verify (sig msg : Option Bytes) (len : ℕ) (pubkey : Option Bytes) :
    Reports (sig = none ∨ (msg = none ∧ len ≠ 0) ∨ pubkey = none ∨
        ∃ s b, sig = some s ∧ pubkey = some b ∧ beNat (s.take 32) < p ∧
          beNat ((s.drop 32).take 32) < n ∧ NoKey b)
      (fun _ => True) (schnorrsigVerify sig msg len pubkey) := by
  have h1 : ∀ t : Bytes, (scSetB32 t).2 = false ↔ beNat (t.take 32) < n := by
    intro t; simp [scSetB32]
  have h2 : ∀ t : Bytes, (feSetB32Limit t).2 = true ↔ beNat (t.take 32) < p := by
    intro t; simp [feSetB32Limit]
  cases sig with
  | none => leaf
  | some s =>
    simp only [schnorrsigVerify]
    by_cases hm : msg = none ∧ len ≠ 0
    · rw [if_pos hm]; exact reports_arg (Or.inr (Or.inl hm)) trivial
    · rw [if_neg hm]
      cases pubkey with
      | none => leaf
      | some b =>
        have hb := h1 (s.drop 32)
        have hr := h2 s
        dsimp only
        split_ifs with i1 i2 i3
        · have : ¬ beNat (s.take 32) < p := fun w => by rw [hr.2 w] at i1; cases i1
          refine reports_ok ?_
          rintro (h | h | h | ⟨s', b', h, -, h', -⟩)
          · cases h
          · exact hm h
          · cases h
          · cases h; exact this h'
        · have : ¬ beNat ((s.drop 32).take 32) < n := fun w => by rw [hb.2 w] at i2; cases i2
          refine reports_ok ?_
          rintro (h | h | h | ⟨s', b', h, -, -, h', -⟩)
          · cases h
          · exact hm h
          · cases h
          · cases h; exact this h'
        · exact reports_bad (by
            refine Or.inr (Or.inr (Or.inr ⟨s, b, rfl, rfl, hr.1 (by simpa using i1), hb.1 (by simpa using i2), ?_⟩))
            exact (load_false b).1 (by simpa using i3)) trivial
        · have : ¬ NoKey b := (load_iff b).1 (by simpa using i3)
          exact reports_ok (by simp_all)

/-! ## MuSig: key aggregation -/

theorem cacheLoad_iff (b : Bytes) : keyaggCacheLoad b = none ↔ WrongMagic cacheMagic b := by
  rw [← memcmp4_iff]; simp only [keyaggCacheLoad]; split_ifs <;> simp_all

theorem pubnonceLoad_iff (b : Bytes) : pubnonceLoad b = none ↔ WrongMagic pubnonceMagic b := by
  rw [← memcmp4_iff]; simp only [pubnonceLoad]; split_ifs <;> simp_all

theorem aggnonceLoad_iff (b : Bytes) : aggnonceLoad b = none ↔ WrongMagic aggnonceMagic b := by
  rw [← memcmp4_iff]; simp only [aggnonceLoad]; split_ifs <;> simp_all

theorem sessionLoad_iff (b : Bytes) : sessionLoad b = none ↔ WrongMagic sessionMagic b := by
  rw [← memcmp4_iff]; simp only [sessionLoad]; split_ifs <;> simp_all

theorem partialSigLoad_iff (b : Bytes) : partialSigLoad b = none ↔ WrongMagic partialSigMagic b := by
  rw [← memcmp4_iff]; simp only [partialSigLoad]; split_ifs <;> simp_all

theorem pksHash_iff (pks : List Bytes) : computePksHash pks = none ↔ ∃ b ∈ pks, NoKey b := by
  have loop : ∀ (pks : List Bytes) (sha : Hash.Sha), pksHashLoop pks sha = none ↔ ∃ b ∈ pks, NoKey b := by
    intro pks
    induction pks with
    | nil => intro sha; simp [pksHashLoop]
    | cons b l ih =>
      intro sha
      simp only [pksHashLoop]
      by_cases h : NoKey b
      · rcases C40_ec_pubkey_serialize (some (zeros 33)) (some 33) (some b) ecCompressed with
          ⟨-, -, h2, -⟩ | ⟨h2, -⟩
        · rw [if_pos h2]; simp [h]
        · exact absurd (Or.inr (Or.inr (Or.inr (Or.inr (Or.inr ⟨b, rfl, h⟩))))) h2
      · have hr : (ecPubkeySerialize (some (zeros 33)) (some 33) (some b) ecCompressed).ret = 1 := by
          have e : ecPubkeySerialize (some (zeros 33)) (some 33) (some b) ecCompressed =
              (let q := pubkeyLoad b
               if q.2 then
                 let r := eckeyPubkeySerialize q.1 (put (zeros 33) 0 (zeros 33)) 33 true
                 if r.2.2 then ⟨1, 0, (some r.1, some r.2.1)⟩ else ⟨0, 0, (some r.1, some 0)⟩
               else ⟨0, 1, (some (put (zeros 33) 0 (zeros 33)), some 0)⟩) := rfl
          have hi : (pubkeyLoad b).1.infinity = false := rfl
          rw [e]
          simp only [(load_iff b).2 h, if_true, eckeyPubkeySerialize, hi, Bool.false_eq_true, if_false]
        rw [if_neg (by rw [hr]; decide), ih]
        simp [h]
  simp only [computePksHash]
  rw [← loop pks (shaMidstate Hash.uninit keyaggListMid)]
  cases pksHashLoop pks (shaMidstate Hash.uninit keyaggListMid) <;> simp

theorem C40_musig_pubkey_agg (aggPk cache : Option Bytes) (pubkeys : Option (List Bytes)) :
    Reports (pubkeys = none ∨ pubkeys = some [] ∨ ∃ l, pubkeys = some l ∧ ∃ b ∈ l, NoKey b)
      (fun v => Kept aggPk v.1 ∧ Kept cache v.2) (musigPubkeyAgg aggPk cache pubkeys) := by
  have hw : ∀ (l : List Bytes) (s : Ge Fp),
      Reports (∃ b ∈ l, NoKey b) (fun v => Kept aggPk v.1 ∧ Kept cache v.2)
        (pubkeyAggWith (aggPk.map fun _ => zeros 64) cache l s) := by
    intro l s
    have h := pksHash_iff l
    unfold pubkeyAggWith
    cases e : computePksHash l with
    | none => exact reports_bad (h.1 e) (by keeps)
    | some hsh =>
      have hn : ¬ ∃ b ∈ l, NoKey b := fun w => by rw [h.2 w] at e; cases e
      dsimp only
      split
      · exact reports_ok hn
      · exact reports_ok hn
  cases pubkeys with
  | none => exact reports_arg (Or.inl rfl) (by keeps)
  | some l =>
    cases l with
    | nil => exact reports_arg (Or.inr (Or.inl rfl)) (by keeps)
    | cons a l =>
      simp only [musigPubkeyAgg]
      cases hs : findSecond a l with
      | none => simpa using hw (a :: l) geInfinity
      | some b =>
        dsimp only
        have hm : b ∈ l := List.mem_of_find?_eq_some hs
        split_ifs with i1
        · exact reports_bad (Or.inr (Or.inr ⟨_, rfl, b, by simp [hm], (load_false b).1 (by simpa using i1)⟩))
            (by keeps)
        · simpa using hw (a :: l) (pubkeyLoad b).1

theorem C40_musig_pubkey_get (aggPk cache : Option Bytes) :
    Reports (aggPk = none ∨ cache = none ∨ ∃ b, cache = some b ∧ WrongMagic cacheMagic b) (Kept aggPk)
      (musigPubkeyGet aggPk cache) := by
  cases aggPk <;> cases cache <;> simp only [musigPubkeyGet, ← cacheLoad_iff] <;> (try split) <;> leaf

theorem C40_musig_pubkey_tweak_add (out cache tweak : Option Bytes) (xonly : Bool) :
    Reports (cache = none ∨ tweak = none ∨ ∃ b, cache = some b ∧ WrongMagic cacheMagic b)
      (fun v => Kept out v.1 ∧ Kept cache v.2) (musigTweakAddInternal out cache tweak xonly) := by
  cases cache <;> cases tweak <;> simp only [musigTweakAddInternal, ← cacheLoad_iff] <;>
    (try split) <;> (try split_ifs) <;> leaf

/-- The two exported functions. -/
theorem C40_musig_tweaks (out cache tweak : Option Bytes) :
    Reports (cache = none ∨ tweak = none ∨ ∃ b, cache = some b ∧ WrongMagic cacheMagic b)
      (fun v => Kept out v.1 ∧ Kept cache v.2) (musigEcTweakAdd out cache tweak) ∧
    Reports (cache = none ∨ tweak = none ∨ ∃ b, cache = some b ∧ WrongMagic cacheMagic b)
      (fun v => Kept out v.1 ∧ Kept cache v.2) (musigXonlyTweakAdd out cache tweak) :=
  ⟨C40_musig_pubkey_tweak_add out cache tweak false, C40_musig_pubkey_tweak_add out cache tweak true⟩

/-! ## MuSig: wire objects -/

theorem C40_musig_pubnonce_parse (nonce in66 : Option Bytes) :
    Reports (nonce = none ∨ in66 = none) (Kept nonce) (musigPubnonceParse nonce in66) := by
  cases nonce <;> cases in66 <;> simp only [musigPubnonceParse] <;> (try split_ifs) <;> leaf

theorem C40_musig_pubnonce_serialize (out66 nonce : Option Bytes) :
    Reports (out66 = none ∨ nonce = none ∨ ∃ b, nonce = some b ∧ WrongMagic pubnonceMagic b)
      (Kept out66) (musigPubnonceSerialize out66 nonce) := by
  cases out66 <;> cases nonce <;> simp only [musigPubnonceSerialize, ← pubnonceLoad_iff] <;>
    (try split) <;> leaf

theorem C40_musig_aggnonce_parse (nonce in66 : Option Bytes) :
    Reports (nonce = none ∨ in66 = none) (Kept nonce) (musigAggnonceParse nonce in66) := by
  cases nonce <;> cases in66 <;> simp only [musigAggnonceParse] <;> (try split) <;> (try split) <;> leaf

theorem C40_musig_aggnonce_serialize (out66 nonce : Option Bytes) :
    Reports (out66 = none ∨ nonce = none ∨ ∃ b, nonce = some b ∧ WrongMagic aggnonceMagic b)
      (Kept out66) (musigAggnonceSerialize out66 nonce) := by
  cases out66 <;> cases nonce <;> simp only [musigAggnonceSerialize, ← aggnonceLoad_iff] <;>
    (try split) <;> leaf

theorem C40_musig_partial_sig_parse (sig in32 : Option Bytes) :
    Reports (sig = none ∨ in32 = none) (Kept sig) (musigPartialSigParse sig in32) := by
  cases sig <;> cases in32 <;> simp only [musigPartialSigParse] <;> (try split_ifs) <;> leaf

theorem C40_musig_partial_sig_serialize (out32 sig : Option Bytes) :
    Reports (out32 = none ∨ sig = none ∨ ∃ b, sig = some b ∧ WrongMagic partialSigMagic b)
      (Kept out32) (musigPartialSigSerialize out32 sig) := by
  cases out32 <;> cases sig <;> simp only [musigPartialSigSerialize, ← memcmp4_iff] <;>
    (try split_ifs) <;> leaf

/-! ## MuSig: signing -/

/-- The checks that both nonce functions share. -/
def NonceGenBad (ctx : Ctx) (pubnonce pubkey cache : Option Bytes) : Prop :=
  pubnonce = none ∨ pubkey = none ∨ ecmultGenIsBuilt ctx.gen = false ∨
    (∃ b, cache = some b ∧ WrongMagic cacheMagic b) ∨ ∃ b, pubkey = some b ∧ NoKey b

theorem nonceGenInternal_reports (ctx : Ctx) (sn : Bytes) (pubnonce : Option Bytes) (rand : Bytes)
    (seckey pubkey msg cache extra : Option Bytes) :
    Reports (NonceGenBad ctx pubnonce pubkey cache) (fun v => v.1 = sn ∧ Kept pubnonce v.2)
      (musigNonceGenInternal ctx sn pubnonce rand seckey pubkey msg cache extra) := by
  unfold NonceGenBad
  cases pubnonce with
  | none => exact reports_arg (by simp) ⟨rfl, trivial⟩
  | some pn =>
    cases pubkey with
    | none => exact reports_arg (by simp) ⟨rfl, kept_zeros _ _⟩
    | some pk =>
      simp only [musigNonceGenInternal]
      by_cases hb : ecmultGenIsBuilt ctx.gen = true
      · rw [if_neg (by simp [hb])]
        have hc : nonceGenAggPk cache = none ↔ ∃ b, cache = some b ∧ WrongMagic cacheMagic b := by
          cases cache with
          | none => simp [nonceGenAggPk]
          | some c => simp [nonceGenAggPk, cacheLoad_iff]
        cases hg : nonceGenAggPk cache with
        | none => exact reports_arg (Or.inr (Or.inr (Or.inr (Or.inl (hc.1 hg))))) ⟨rfl, kept_zeros _ _⟩
        | some a =>
          have hn : ¬ ∃ b, cache = some b ∧ WrongMagic cacheMagic b := fun w => by
            rw [hc.2 w] at hg; cases hg
          dsimp only
          split_ifs with i
          · exact reports_bad (Or.inr (Or.inr (Or.inr (Or.inr
              ⟨pk, rfl, (load_false pk).1 (by simpa using i)⟩)))) ⟨rfl, kept_zeros _ _⟩
          · have : ¬ NoKey pk := (load_iff pk).1 (by simpa using i)
            refine reports_ok ?_
            rintro (h | h | h | h | ⟨b, h, h'⟩)
            · cases h
            · cases h
            · rw [hb] at h; cases h
            · exact hn h
            · cases h; exact this h'
      · rw [if_pos (by simpa using hb)]
        exact reports_arg (Or.inr (Or.inr (Or.inl (by simpa using hb)))) ⟨rfl, kept_zeros _ _⟩

/-- All-zero session randomness makes the function return 0 before the other checks. -/
theorem C40_musig_nonce_gen (ctx : Ctx) (secnonce pubnonce rand seckey pubkey msg cache extra : Option Bytes) :
    Reports (secnonce = none ∨ rand = none ∨
        (∃ r, rand = some r ∧ isZeroArray (r.take 32) = false ∧ NonceGenBad ctx pubnonce pubkey cache))
      (fun v => Kept secnonce v.1 ∧ Kept pubnonce v.2.1 ∧ v.2.2 = rand)
      (musigNonceGen ctx secnonce pubnonce rand seckey pubkey msg cache extra) := by
  cases secnonce with
  | none => exact reports_arg (by simp) ⟨trivial, kept_refl _, rfl⟩
  | some sn =>
    cases rand with
    | none => exact reports_arg (by simp) ⟨kept_zeros _ _, kept_refl _, rfl⟩
    | some r =>
      simp only [musigNonceGen]
      by_cases hz : isZeroArray (r.take 32) = true
      · rw [if_pos hz]; exact reports_ok (by simp [hz])
      · rw [if_neg hz]
        have hz' : isZeroArray (r.take 32) = false := by simpa using hz
        rcases nonceGenInternal_reports ctx (zeros 132) pubnonce r seckey pubkey msg cache extra with
          ⟨h1, h2, h3, h4, h5⟩ | ⟨h1, h2⟩
        · refine Or.inl ⟨Or.inr (Or.inr ⟨r, rfl, hz', h1⟩), h2, h3, ?_, h5, ?_⟩
          · dsimp only; rw [h4]; exact kept_zeros _ _
          · have : ∀ r : Bytes, r.take 32 ++ r.drop (min 32 r.length) = r := by
              intro r
              rcases Nat.le_total 32 r.length with h | h
              · rw [Nat.min_eq_left h, List.take_append_drop]
              · rw [Nat.min_eq_right h, List.drop_length, List.take_of_length_le h, List.append_nil]
            simp [h3, memczero, put, this]
        · refine Or.inr ⟨?_, h2⟩
          rintro (h | h | ⟨r', h, -, h'⟩)
          · cases h
          · cases h
          · exact h1 h'

theorem C40_musig_nonce_gen_counter (ctx : Ctx) (secnonce pubnonce : Option Bytes) (cnt : UInt64)
    (keypair msg cache extra : Option Bytes) :
    Reports (secnonce = none ∨ keypair = none ∨ pubnonce = none ∨ ecmultGenIsBuilt ctx.gen = false ∨
        (∃ b, cache = some b ∧ WrongMagic cacheMagic b) ∨
        ∃ b, keypair = some b ∧ NoKey (put (zeros 64) 0 ((b.drop 32).take 64)))
      (fun v => Kept secnonce v.1 ∧ Kept pubnonce v.2)
      (musigNonceGenCounter ctx secnonce pubnonce cnt keypair msg cache extra) := by
  cases secnonce with
  | none => exact reports_arg (by simp) ⟨trivial, kept_refl _⟩
  | some sn =>
    cases keypair with
    | none => exact reports_arg (by simp) ⟨kept_zeros _ _, kept_refl _⟩
    | some k =>
      simp only [musigNonceGenCounter]
      rcases nonceGenInternal_reports ctx (zeros 132) pubnonce (beBytes 8 cnt.toNat ++ zeros 24)
          (keypairSec (some (zeros 32)) (some k)).val (keypairPub (some (zeros 64)) (some k)).val msg cache
          extra with ⟨h1, h2, h3, h4, h5⟩ | ⟨h1, h2⟩
      · refine Or.inl ⟨?_, h2, ?_, ?_, h5⟩
        · rcases h1 with h | h | h | h | ⟨b, h, h'⟩
          · exact Or.inr (Or.inr (Or.inl h))
          · cases h
          · exact Or.inr (Or.inr (Or.inr (Or.inl h)))
          · exact Or.inr (Or.inr (Or.inr (Or.inr (Or.inl h))))
          · cases h; exact Or.inr (Or.inr (Or.inr (Or.inr (Or.inr ⟨k, rfl, h'⟩))))
        · dsimp only; rw [h3]; rfl
        · dsimp only; rw [h4]; exact kept_zeros _ _
      · refine Or.inr ⟨?_, h2⟩
        rintro (h | h | h | h | h | ⟨b, h, h'⟩)
        · cases h
        · cases h
        · exact h1 (Or.inl h)
        · exact h1 (Or.inr (Or.inr (Or.inl h)))
        · exact h1 (Or.inr (Or.inr (Or.inr (Or.inl h))))
        · cases h; exact h1 (Or.inr (Or.inr (Or.inr (Or.inr ⟨_, rfl, h'⟩))))

theorem C40_musig_nonce_agg (aggnonce : Option Bytes) (pubnonces : Option (List Bytes)) :
    Reports (aggnonce = none ∨ pubnonces = none ∨ pubnonces = some [] ∨
        ∃ l, pubnonces = some l ∧ ∃ b ∈ l, WrongMagic pubnonceMagic b)
      (Kept aggnonce) (musigNonceAgg aggnonce pubnonces) := by
  have loop : ∀ (l : List Bytes) (s t : Gej Fp), sumPubnoncesLoop l s t = none ↔
      ∃ b ∈ l, WrongMagic pubnonceMagic b := by
    intro l
    induction l with
    | nil => intro s t; simp [sumPubnoncesLoop]
    | cons a l ih =>
      intro s t
      simp only [sumPubnoncesLoop]
      have h := pubnonceLoad_iff a
      cases e : pubnonceLoad a with
      | none => simp [h.1 e]
      | some q =>
        have : ¬ WrongMagic pubnonceMagic a := fun w => by rw [h.2 w] at e; cases e
        dsimp only
        rw [ih]; simp [this]
  cases aggnonce with
  | none => leaf
  | some old =>
    cases pubnonces with
    | none => leaf
    | some l =>
      simp only [musigNonceAgg]
      by_cases h0 : l.length > 0
      · rw [if_neg (not_not.2 h0)]
        have hl : l ≠ [] := by rintro rfl; simp at h0
        have h := loop l gejInfinity gejInfinity
        cases e : sumPubnonces l with
        | none => exact reports_arg (Or.inr (Or.inr (Or.inr ⟨l, rfl, h.1 e⟩))) (by keeps)
        | some q =>
          refine reports_ok ?_
          rintro (h' | h' | h' | ⟨l', h', h''⟩)
          · cases h'
          · cases h'
          · exact hl (Option.some.inj h')
          · cases h'
            have := h.2 h''
            rw [show sumPubnoncesLoop l gejInfinity gejInfinity = sumPubnonces l from rfl, e] at this
            cases this
      · rw [if_pos h0]
        have : l = [] := List.length_eq_zero_iff.1 (by omega)
        exact reports_arg (by simp [this]) (by keeps)

theorem C40_musig_nonce_process (session aggnonce msg cache : Option Bytes) :
    Reports (session = none ∨ aggnonce = none ∨ msg = none ∨ cache = none ∨
        (∃ b, cache = some b ∧ WrongMagic cacheMagic b) ∨
        ∃ b, aggnonce = some b ∧ WrongMagic aggnonceMagic b)
      (Kept session) (musigNonceProcess session aggnonce msg cache) := by
  cases session <;> cases aggnonce <;> cases msg <;> cases cache <;>
    simp only [musigNonceProcess, ← cacheLoad_iff, ← aggnonceLoad_iff] <;> (try split) <;> (try split) <;>
    leaf

/-- A secret nonce object that does not hold a nonce: wrong magic, or zeroed by an earlier call. -/
def NoSecnonce (b : Bytes) : Prop := WrongMagic secnonceMagic b ∨ ∀ x ∈ (b.drop 4).take 64, x = 0

/-- The public key stored in the secret nonce (bytes 68 to 131) is not the one of the keypair (bytes 32
to 95). -/
def OtherKey (s k : Bytes) : Prop :=
  ¬ ((leNat ((s.drop 68).take 32) : Fp) = leNat ((k.drop 32).take 32) ∧
     (leNat (((s.drop 68).drop 32).take 32) : Fp) = leNat (((k.drop 32).drop 32).take 32))

theorem secnonceLoad_iff (b : Bytes) : secnonceLoad b = none ↔ NoSecnonce b := by
  have h := memcmp4_iff b secnonceMagic
  have h2 := isZeroArray_iff ((b.drop 4).take 64)
  unfold NoSecnonce
  simp only [secnonceLoad]
  split_ifs with i1 i2
  · exact ⟨fun _ => Or.inl (h.1 i1), fun _ => rfl⟩
  · exact ⟨fun _ => Or.inr (h2.1 i2), fun _ => rfl⟩
  · constructor
    · intro h; cases h
    · rintro (w | w)
      · exact absurd (h.2 w) i1
      · exact absurd (h2.2 w) i2

/-- The keypair must match the public key stored in the secret nonce. -/
theorem C40_musig_partial_sign (partialSig secnonce keypair cache session : Option Bytes) :
    Reports (secnonce = none ∨ (∃ b, secnonce = some b ∧ NoSecnonce b) ∨ partialSig = none ∨
        keypair = none ∨ cache = none ∨ session = none ∨ (∃ b, keypair = some b ∧ NoKeypair b) ∨
        (∃ s k, secnonce = some s ∧ keypair = some k ∧ OtherKey s k) ∨
        (∃ b, cache = some b ∧ WrongMagic cacheMagic b) ∨
        ∃ b, session = some b ∧ WrongMagic sessionMagic b)
      (fun v => Kept partialSig v.1 ∧ Kept secnonce v.2)
      (musigPartialSign partialSig secnonce keypair cache session) := by
  cases secnonce with
  | none => exact reports_arg (by simp) (by keeps)
  | some sn =>
    cases hs : secnonceLoad sn with
    | none =>
      simp only [musigPartialSign, hs]
      exact reports_bad (by simp [(secnonceLoad_iff sn).1 hs]) (by keeps)
    | some l =>
      have hns : ¬ NoSecnonce sn := fun w => by rw [(secnonceLoad_iff sn).2 w] at hs; cases hs
      obtain ⟨k0, k1, pk⟩ := l
      have hpk : pk = geFromBytes (sn.drop 68) := by
        simp only [secnonceLoad] at hs
        split_ifs at hs
        cases hs; rfl
      simp only [musigPartialSign, hs]
      cases partialSig with
      | none => exact Or.inl ⟨by simp, rfl, rfl, by keeps⟩
      | some ps =>
        cases keypair with
        | none => exact Or.inl ⟨by simp, rfl, rfl, by keeps⟩
        | some kp =>
          cases cache with
          | none => exact Or.inl ⟨by simp, rfl, rfl, by keeps⟩
          | some c =>
            cases session with
            | none => exact Or.inl ⟨by simp, rfl, rfl, by keeps⟩
            | some se =>
              have hk := keypairLoad_iff kp
              have he : ∀ a b : Fp, FeOps.equal a b = true ↔ a = b := fun a b => equal_iff a b
              have hc := cacheLoad_iff c
              have hse := sessionLoad_iff se
              simp only [partialSignWith]
              by_cases i1 : (keypairLoad kp).2.2 = true
              · have hkx : (keypairLoad kp).2.1 = geFromBytes (kp.drop 32) := by
                  have e : (keypairLoad kp).2.1 =
                      if !((pubkeyLoad (kp.drop 32)).2 && (keypairSeckeyLoad kp).2) then geConstG
                      else (pubkeyLoad (kp.drop 32)).1 := by
                    simp only [keypairLoad]; split_ifs <;> rfl
                  have e2 : (keypairLoad kp).2.2 =
                      ((pubkeyLoad (kp.drop 32)).2 && (keypairSeckeyLoad kp).2) := by
                    simp only [keypairLoad]
                    cases (pubkeyLoad (kp.drop 32)).2 <;> cases (keypairSeckeyLoad kp).2 <;> rfl
                  rw [e, ← e2, i1]; rfl
                have ho : OtherKey sn kp ↔
                    ¬ (pk.x = (keypairLoad kp).2.1.x ∧ pk.y = (keypairLoad kp).2.1.y) := by
                  rw [hkx, hpk]; exact Iff.rfl
                by_cases i2 : pk.x = (keypairLoad kp).2.1.x ∧ pk.y = (keypairLoad kp).2.1.y
                · rw [if_neg (by simp [i1]), if_neg (by simp [(he _ _).2 i2.1, (he _ _).2 i2.2])]
                  cases e1 : keyaggCacheLoad c with
                  | none => exact Or.inl ⟨by simp [hc.1 e1], rfl, rfl, by keeps⟩
                  | some cc =>
                    cases e2 : sessionLoad se with
                    | none => exact Or.inl ⟨by simp [hse.1 e2], rfl, rfl, by keeps⟩
                    | some ss =>
                      have n1 : ¬ WrongMagic cacheMagic c := fun w => by rw [hc.2 w] at e1; cases e1
                      have n2 : ¬ WrongMagic sessionMagic se := fun w => by rw [hse.2 w] at e2; cases e2
                      have n3 : ¬ OtherKey sn kp := fun w => ho.1 w i2
                      exact Or.inr ⟨by simp [hk.1 i1, n1, n2, n3, hns], rfl⟩
                · have : (!(FeOps.equal pk.x (keypairLoad kp).2.1.x &&
                      FeOps.equal pk.y (keypairLoad kp).2.1.y)) = true := by
                    rw [Bool.not_eq_true', ← Bool.not_eq_true, Bool.and_eq_true, he, he]; exact i2
                  rw [if_neg (by simp [i1]), if_pos this]
                  refine Or.inl ⟨?_, rfl, rfl, by keeps⟩
                  exact Or.inr (Or.inr (Or.inr (Or.inr (Or.inr (Or.inr (Or.inr (Or.inl
                    ⟨sn, kp, rfl, rfl, ho.2 i2⟩)))))))
              · rw [if_pos (by simpa using i1)]
                refine Or.inl ⟨?_, rfl, rfl, by keeps⟩
                have : NoKeypair kp := by by_contra w; exact i1 (hk.2 w)
                simp [this]

theorem C40_musig_partial_sig_verify (partialSig pubnonce pubkey cache session : Option Bytes) :
    Reports (partialSig = none ∨ pubnonce = none ∨ pubkey = none ∨ cache = none ∨ session = none ∨
        (∃ b, session = some b ∧ WrongMagic sessionMagic b) ∨
        (∃ b, pubnonce = some b ∧ WrongMagic pubnonceMagic b) ∨ (∃ b, pubkey = some b ∧ NoKey b) ∨
        (∃ b, cache = some b ∧ WrongMagic cacheMagic b) ∨
        ∃ b, partialSig = some b ∧ WrongMagic partialSigMagic b)
      (fun _ => True) (musigPartialSigVerify partialSig pubnonce pubkey cache session) := by
  cases partialSig <;> cases pubnonce <;> cases pubkey <;> cases cache <;> cases session <;>
    simp only [musigPartialSigVerify, ← cacheLoad_iff, ← sessionLoad_iff, ← pubnonceLoad_iff,
      ← partialSigLoad_iff] <;> (try split) <;> (try split) <;> (try split_ifs) <;> (try split) <;>
      (try split) <;> leaf

theorem C40_musig_partial_sig_agg (sig session : Option Bytes) (sigs : Option (List Bytes)) :
    Reports (sig = none ∨ session = none ∨ sigs = none ∨ sigs = some [] ∨
        (∃ b, session = some b ∧ WrongMagic sessionMagic b) ∨
        ∃ l, sigs = some l ∧ ∃ b ∈ l, WrongMagic partialSigMagic b)
      (Kept sig) (musigPartialSigAgg sig session sigs) := by
  have loop : ∀ (l : List Bytes) (s : Fn), partialSigSum l s = none ↔
      ∃ b ∈ l, WrongMagic partialSigMagic b := by
    intro l
    induction l with
    | nil => intro s; simp [partialSigSum]
    | cons a l ih =>
      intro s
      simp only [partialSigSum]
      have h := partialSigLoad_iff a
      cases e : partialSigLoad a with
      | none => simp [h.1 e]
      | some q =>
        have : ¬ WrongMagic partialSigMagic a := fun w => by rw [h.2 w] at e; cases e
        dsimp only
        rw [ih]; simp [this]
  cases sig with
  | none => leaf
  | some old =>
    cases session with
    | none => leaf
    | some se =>
      cases sigs with
      | none => leaf
      | some l =>
        simp only [musigPartialSigAgg]
        by_cases h0 : l.length > 0
        · rw [if_neg (not_not.2 h0)]
          have hl : l ≠ [] := by rintro rfl; simp at h0
          have hse := sessionLoad_iff se
          cases e1 : sessionLoad se with
          | none => exact reports_arg (by simp [hse.1 e1]) (by keeps)
          | some ss =>
            have n2 : ¬ WrongMagic sessionMagic se := fun w => by rw [hse.2 w] at e1; cases e1
            dsimp only
            cases e2 : partialSigSum l ss.sPart with
            | none =>
              exact reports_arg (Or.inr (Or.inr (Or.inr (Or.inr (Or.inr ⟨l, rfl, (loop l _).1 e2⟩))))) (by keeps)
            | some v =>
              refine reports_ok ?_
              rintro (h' | h' | h' | h' | ⟨b, h', h''⟩ | ⟨l', h', h''⟩)
              · cases h'
              · cases h'
              · cases h'
              · exact hl (Option.some.inj h')
              · cases h'; exact n2 h''
              · cases h'; rw [(loop l _).2 h''] at e2; cases e2
        · rw [if_pos h0]
          have : l = [] := List.length_eq_zero_iff.1 (by omega)
          exact reports_arg (by simp [this]) (by keeps)

/-- `secp256k1_ec_pubkey_sort`: a NULL array is reported; with keys that are all readable the callback is
not called. -/
theorem C40_ec_pubkey_sort {α : Type} (deref : α → Option Bytes) (keys : Option (List α)) :
    (keys = none → ecPubkeySort deref keys = some ⟨0, 1, none⟩) ∧
    (∀ l, keys = some l → (∀ k ∈ l, ¬ Unreadable (deref k)) →
      ∃ sorted, ecPubkeySort deref keys = some ⟨1, 0, some sorted⟩) := by
  constructor
  · rintro rfl; rfl
  · rintro l rfl h
    obtain ⟨a, ill, h1, -, -⟩ := Hsort.hsort_spec (sortCmp_orders deref) l
    have hz := Hsort.hsort_zero (fun x hx y hy =>
      (C40_ec_pubkey_cmp (deref x) (deref y)).1 ⟨h x hx, h y hy⟩) h1
    exact ⟨a, by simp only [ecPubkeySort, h1, hz]⟩

/-- Unusable objects occur: what the library leaves behind in failing calls is all zero. -/
example : NoKey (zeros 64) ∧ NoKeypair (zeros 96) ∧ WrongMagic cacheMagic (zeros 197) ∧
    WrongMagic sessionMagic (zeros 133) ∧ WrongMagic pubnonceMagic (zeros 132) ∧
    WrongMagic aggnonceMagic (zeros 132) ∧ WrongMagic partialSigMagic (zeros 36) ∧
    NoSecnonce (zeros 132) := by
  refine ⟨by unfold NoKey; decide +kernel, Or.inl (by decide +kernel), ⟨0, by decide, by decide⟩,
    ⟨0, by decide, by decide⟩, ⟨0, by decide, by decide⟩, ⟨0, by decide, by decide⟩,
    ⟨0, by decide, by decide⟩,
    Or.inl ⟨0, by decide, by decide⟩⟩

end Secp
