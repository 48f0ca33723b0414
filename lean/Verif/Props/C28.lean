import Verif.Props.C27
import Verif.Props.C16

/-! # C28: keypairs stay consistent under every operation -/

namespace Secp
open Model Spec

/-- The keypair objects a user can hold: made by a successful `secp256k1_keypair_create` on some live
context and then changed by any number of successful `secp256k1_keypair_xonly_tweak_add` calls. -/
inductive KeypairMade : Bytes → Prop
  | create {ctx : Ctx} {old seckey kp : Bytes} (hctx : LiveCtx ctx) (hl : seckey.length = 32)
      (h : keypairCreate ctx (some old) (some seckey) = ⟨1, 0, some kp⟩) : KeypairMade kp
  | tweak {kp tweak kp' : Bytes} (hk : KeypairMade kp) (hl : tweak.length = 32)
      (h : keypairXonlyTweakAdd (some kp) (some tweak) = ⟨1, 0, some kp'⟩) : KeypairMade kp'

/-- `secp256k1_keypair_create` on a valid secret key. -/
theorem C28_create {ctx : Ctx} (hctx : LiveCtx ctx) (old : Bytes) {seckey : Bytes}
    (hl : seckey.length = 32) (h1 : 1 ≤ beNat seckey) (hn : beNat seckey < n) :
    keypairCreate ctx (some old) (some seckey) =
      ⟨1, 0, some (seckey ++ keyObject (beNat seckey • G))⟩ := by
  have hg := hctx.ok
  obtain ⟨k1, k2, k3, k4⟩ := createHelper_rep hg seckey
  have hok : (scSetB32Seckey seckey).2 = true := by
    rw [scSetB32Seckey_iff, take32 hl]; exact ⟨h1, hn⟩
  rw [hok] at k3
  have e := k4 k3
  rw [take32 hl] at e
  simp only [keypairCreate, ecmultGenIsBuilt, hg.built, k3]
  rw [keypairSave_rep k2 k1, e, keypairObject, ZMod.val_natCast, Nat.mod_eq_of_lt hn]
  have : beBytes 32 (beNat seckey) = seckey :=
    beNat_inj (by rw [Hash.beBytes_length, hl])
      (by rw [beNat_beBytes, Nat.mod_eq_of_lt (lt_trans hn n_lt_256)])
  rw [this]
  simp [memczero, cInt]

/-- On any other 32 bytes it returns 0 and leaves zeros. -/
theorem C28_create_invalid {ctx : Ctx} (hctx : LiveCtx ctx) (old : Bytes) {seckey : Bytes}
    (hl : seckey.length = 32) (h : beNat seckey = 0 ∨ n ≤ beNat seckey) :
    keypairCreate ctx (some old) (some seckey) = ⟨0, 0, some (List.replicate 96 0)⟩ := by
  have hg := hctx.ok
  obtain ⟨k1, k2, k3, k4⟩ := createHelper_rep hg seckey
  have hok : (scSetB32Seckey seckey).2 = false := by
    rw [Bool.eq_false_iff, Ne, scSetB32Seckey_iff, take32 hl]; omega
  rw [hok] at k3
  simp only [keypairCreate, ecmultGenIsBuilt, hg.built, k3]
  rw [keypairSave_rep k2 k1]
  simp [memczero, cInt, keypairObject_length, zeros]

/-- The keys 5 and `n`. -/
example : ∃ ctx, (keypairCreate ctx (some []) (some (beBytes 32 5))).ret = 1 ∧
    keypairCreate ctx (some [7]) (some (beBytes 32 n)) = ⟨0, 0, some (List.replicate 96 0)⟩ := by
  have hctx := LiveCtx.create (junk := contextStatic comb22) (flags := 1) (Or.inr (Or.inl rfl)) rfl
  exact ⟨_, by rw [C28_create hctx [] (by decide +kernel) (by decide +kernel) (by decide +kernel)],
    C28_create_invalid hctx [7] (by decide +kernel) (Or.inr (by decide +kernel))⟩

/-- The secret key whose public key is the even-y point. -/
def evenKey (d : Fn) : Fn := if ptY (d.val • G) % 2 = 1 then -d else d

theorem evenKey_smul (d : Fn) : evenKey d • G = evenY (d.val • G) := by
  rw [evenKey, val_smul]; exact scNeg_smul_evenY d

theorem evenKey_ne {d : Fn} (hd : d ≠ 0) : evenKey d ≠ 0 := by
  unfold evenKey; split
  · exact neg_ne_zero.2 hd
  · exact hd

/-- `secp256k1_keypair_xonly_tweak_add` on a keypair that holds `d`: with `d' = ±d` such that `d' • G` has
even y, success exactly when `t < n` and `d' + t` is not zero; the keypair then holds `d' + t`, otherwise
it is all zero. -/
theorem C28_tweak {d : Fn} (hd : d ≠ 0) {tweak : Bytes} (ht : tweak.length = 32) :
    (beNat tweak < n ∧ evenKey d + ((beNat tweak : ℕ) : Fn) ≠ 0 →
      keypairXonlyTweakAdd (some (keypairObject d)) (some tweak) =
        ⟨1, 0, some (keypairObject (evenKey d + ((beNat tweak : ℕ) : Fn)))⟩) ∧
    (¬ (beNat tweak < n ∧ evenKey d + ((beNat tweak : ℕ) : Fn) ≠ 0) →
      keypairXonlyTweakAdd (some (keypairObject d)) (some tweak) =
        ⟨0, 0, some (List.replicate 96 0)⟩) := by
  obtain ⟨a, hl, ha⟩ := keypairLoad_obj hd
  obtain ⟨e1, e2⟩ := geEvenY_rep ha (smul_G_ne hd)
  have hsk : (if (geEvenY a).2 = 1 then -d else d) = evenKey d := by
    unfold evenKey
    rw [e2, val_smul]
    by_cases h : ptY (d • G) % 2 = 1
    · rw [if_pos h, if_pos (by rw [h]; rfl)]
    · rw [if_neg h, if_neg (by omega)]
  obtain ⟨s1, s2⟩ := secTweakHelper_eq (evenKey d) ht
  have ev : evenY (d • G) = evenKey d • G := by rw [evenKey_smul, val_smul]
  rw [ev] at e1
  obtain ⟨p1, p2⟩ := tweakHelper_rep e1 ht
  rw [← natCast_smul, ← add_smul] at p1 p2
  have hsp : (ecSeckeyTweakAddHelper (evenKey d) tweak).2 =
      (ecPubkeyTweakAddHelper (geEvenY a).1 tweak).2 := by
    rw [Bool.eq_iff_iff, s2, p1]
    refine and_congr_right fun _ => ⟨fun h => smul_G_ne h, fun h h0 => h ?_⟩
    rw [h0, fn_zero_smul]
  have hu : keypairXonlyTweakAdd (some (keypairObject d)) (some tweak) =
      ⟨cInt (ecPubkeyTweakAddHelper (geEvenY a).1 tweak).2, 0,
        some (if (ecPubkeyTweakAddHelper (geEvenY a).1 tweak).2 then
          keypairSave (evenKey d + ((beNat tweak : ℕ) : Fn)) (ecPubkeyTweakAddHelper (geEvenY a).1 tweak).1
          else zeros 96)⟩ := by
    unfold keypairXonlyTweakAdd
    simp only
    rw [hl]
    simp only
    rw [hsk, s1, hsp]
    simp
  rw [hu]
  refine ⟨fun h => ?_, fun h => ?_⟩
  · have hp : (ecPubkeyTweakAddHelper (geEvenY a).1 tweak).2 = true := by rw [← hsp]; exact s2.2 h
    rw [if_pos hp, keypairSave_rep h.2 (p2 hp), hp]
    rfl
  · have hp : (ecPubkeyTweakAddHelper (geEvenY a).1 tweak).2 = false := by
      rw [← hsp, Bool.eq_false_iff]; exact fun h' => h (s2.1 h')
    rw [hp]
    rfl

/-- The key 1 with the tweaks 5 and `n`. -/
example := (C28_tweak (d := 1) one_ne_zero (tweak := beBytes 32 n) (Hash.beBytes_length _ _)).2
  (fun h => absurd h.1 (by decide +kernel))

/-- Every keypair the user can hold consists of a valid secret key and its public key. -/
theorem C28_made {kp : Bytes} (h : KeypairMade kp) : ∃ d : Fn, d ≠ 0 ∧ kp = keypairObject d := by
  induction h with
  | @create ctx old seckey kp hctx hl h =>
    by_cases hv : 1 ≤ beNat seckey ∧ beNat seckey < n
    · rw [C28_create hctx old hl hv.1 hv.2] at h
      injection h with _ _ e
      refine ⟨((beNat seckey : ℕ) : Fn), cast_ne_zero (by omega) hv.2, ?_⟩
      rw [← Option.some.inj e, keypairObject, ZMod.val_natCast, Nat.mod_eq_of_lt hv.2]
      rw [show beBytes 32 (beNat seckey) = seckey from beNat_inj (by rw [Hash.beBytes_length, hl])
        (by rw [beNat_beBytes, Nat.mod_eq_of_lt (lt_trans hv.2 n_lt_256)])]
    · rw [C28_create_invalid hctx old hl (by omega)] at h
      injection h with e
      exact absurd e (by decide)
  | @tweak kp tweak kp' hk hl h ih =>
    obtain ⟨d, hd, e⟩ := ih
    rw [e] at h
    by_cases hc : beNat tweak < n ∧ evenKey d + ((beNat tweak : ℕ) : Fn) ≠ 0
    · rw [(C28_tweak hd hl).1 hc] at h
      injection h with _ _ e
      exact ⟨_, hc.2, (Option.some.inj e).symm⟩
    · rw [(C28_tweak hd hl).2 hc] at h
      injection h with e
      exact absurd e (by decide)

theorem keypairSec_obj (d : Fn) {out : Bytes} (ho : out.length = 32) :
    keypairSec (some out) (some (keypairObject d)) = ⟨1, 0, some (beBytes 32 d.val)⟩ := by
  simp only [keypairSec]
  rw [keypairObject_take, put_zero_full (b := zeros 32) (by rw [ho]; simp [zeros]),
    put_zero_full (by rw [Hash.beBytes_length]; simp [zeros])]

theorem keypairPub_obj (d : Fn) (out : Bytes) :
    keypairPub (some out) (some (keypairObject d)) = ⟨1, 0, some (keyObject (d.val • G))⟩ := by
  simp only [keypairPub]
  rw [keypairObject_drop, List.take_of_length_le (by rw [keyObject_length]),
    put_zero_full (by rw [keyObject_length]; simp [zeros])]

theorem keypairXonlyPub_obj {d : Fn} (hd : d ≠ 0) (out : Bytes) (par : Option Int) :
    keypairXonlyPub (some out) par (some (keypairObject d)) =
      ⟨1, 0, (some (keyObject (evenY (d.val • G))),
        par.map fun _ => ((ptY (d.val • G) % 2 : ℕ) : Int))⟩ := by
  obtain ⟨a, hl, ha⟩ := keypairLoadPub_obj hd
  obtain ⟨e1, e2⟩ := geEvenY_rep ha (smul_G_ne hd)
  unfold keypairXonlyPub
  simp only
  rw [hl]
  simp only
  rw [pubkeySave_rep e1 (evenY_ne_zero (smul_G_ne hd)), e2, val_smul]
  rfl

/-- After any history of successful calls: `keypair_sec` returns a valid secret key, `keypair_pub` and
`keypair_xonly_pub` return its public key, and every later call of `secp256k1_ec_pubkey_create` on that
secret key agrees. -/
theorem C28_consistent {kp : Bytes} (h : KeypairMade kp) {ctx : Ctx} (hctx : LiveCtx ctx)
    {out : Bytes} (ho : out.length = 32) (o1 o2 o3 : Bytes) (par : Int) :
    ∃ sec pub, keypairSec (some out) (some kp) = ⟨1, 0, some sec⟩ ∧ sec.length = 32 ∧
      1 ≤ beNat sec ∧ beNat sec < n ∧
      keypairPub (some o1) (some kp) = ⟨1, 0, some pub⟩ ∧
      pub = keyObject (beNat sec • G) ∧
      ecPubkeyCreate ctx (some o2) (some sec) = ⟨1, 0, some pub⟩ ∧
      keypairXonlyPub (some o3) (some par) (some kp) =
        ⟨1, 0, (some (keyObject (evenY (beNat sec • G))), some ((ptY (beNat sec • G) % 2 : ℕ) : Int))⟩ := by
  obtain ⟨d, hd, e⟩ := C28_made h
  have hb : beNat (beBytes 32 d.val) = d.val := by
    rw [beNat_beBytes, Nat.mod_eq_of_lt (fn_lt d)]
  have h1 : 1 ≤ d.val := Nat.pos_of_ne_zero fun h => hd ((ZMod.val_eq_zero d).1 h)
  refine ⟨beBytes 32 d.val, keyObject (d.val • G), by rw [e]; exact keypairSec_obj d ho,
    Hash.beBytes_length _ _, by rw [hb]; exact h1, by rw [hb]; exact ZMod.val_lt d,
    by rw [e]; exact keypairPub_obj d o1, by rw [hb], ?_, ?_⟩
  · rw [C16_pubkey_create hctx o2 (Hash.beBytes_length _ _) (by rw [hb]; exact h1)
      (by rw [hb]; exact ZMod.val_lt d), hb]
  · rw [e, hb]; exact keypairXonlyPub_obj hd o3 (some par)

/-- Each tweak acts on the x-only public key exactly as `secp256k1_xonly_pubkey_tweak_add`: it succeeds
in the same cases, and the new public key is the output of that function. -/
theorem C28_tweak_agrees {kp : Bytes} (h : KeypairMade kp) {tweak : Bytes} (ht : tweak.length = 32)
    (o1 o2 o3 : Bytes) (par : Option Int) :
    ∃ xo par' kp' pk, keypairXonlyPub (some o1) par (some kp) = ⟨1, 0, (some xo, par')⟩ ∧
      keypairXonlyTweakAdd (some kp) (some tweak) =
        ⟨(xonlyPubkeyTweakAdd (some o2) (some xo) (some tweak)).ret, 0, some kp'⟩ ∧
      keypairPub (some o3) (some kp') = ⟨1, 0, some pk⟩ ∧
      (xonlyPubkeyTweakAdd (some o2) (some xo) (some tweak)).val = some pk := by
  obtain ⟨d, hd, e⟩ := C28_made h
  have hP : evenY (d.val • G) ≠ 0 := evenY_ne_zero (by rw [val_smul]; exact smul_G_ne hd)
  have hs : (evenKey d + ((beNat tweak : ℕ) : Fn)) • G = evenY (d.val • G) + beNat tweak • G := by
    rw [add_smul, evenKey_smul, natCast_smul]
  by_cases hc : beNat tweak < n ∧ evenKey d + ((beNat tweak : ℕ) : Fn) ≠ 0
  · have hq : evenY (d.val • G) + beNat tweak • G ≠ 0 := by rw [← hs]; exact smul_G_ne hc.2
    have ha := C27_tweak_add hP ht hc.1 hq o2
    refine ⟨_, _, keypairObject (evenKey d + ((beNat tweak : ℕ) : Fn)), _,
      by rw [e]; exact keypairXonlyPub_obj hd o1 par, ?_, keypairPub_obj _ o3, ?_⟩
    · rw [ha, e, (C28_tweak hd ht).1 hc]
    · rw [ha, val_smul (evenKey d + _), hs]
  · have hq : n ≤ beNat tweak ∨ evenY (d.val • G) + beNat tweak • G = 0 := by
      by_cases hn : n ≤ beNat tweak
      · exact Or.inl hn
      · right
        have : evenKey d + ((beNat tweak : ℕ) : Fn) = 0 := by
          by_contra h'; exact hc ⟨by omega, h'⟩
        rw [← hs, this, fn_zero_smul]
    have ha := C27_tweak_add_fail hP ht hq o2
    refine ⟨_, _, List.replicate 96 0, List.replicate 64 0,
      by rw [e]; exact keypairXonlyPub_obj hd o1 par, ?_, ?_, ?_⟩
    · rw [ha, e, (C28_tweak hd ht).2 hc]
    · simp [keypairPub, put, zeros]
    · rw [ha]

/-- A tweak that fails leaves the all-zero keypair, which no function accepts as a keypair: a further
tweak triggers the illegal callback and fails again. -/
theorem C28_failed_dead {tweak : Bytes} (ht : tweak.length = 32) (out : Bytes) (par : Option Int) :
    keypairXonlyTweakAdd (some (List.replicate 96 0)) (some tweak) =
      ⟨0, 1, some (List.replicate 96 0)⟩ ∧
    keypairXonlyPub (some out) par (some (List.replicate 96 0)) =
      ⟨0, 1, (some (List.replicate 64 0), par)⟩ := by
  have h1 : (keypairLoad (List.replicate 96 0)).2.2 = false := by decide +kernel
  have h2 : (keypairLoadPub (List.replicate 96 0)).2 = false := by decide +kernel
  constructor
  · simp only [keypairXonlyTweakAdd, h1]
    simp [cInt, zeros]
  · simp only [keypairXonlyPub, h2]
    rfl

theorem keypairMade_one : KeypairMade (keypairObject 1) := by
  refine KeypairMade.create (old := []) (seckey := beBytes 32 1)
    (LiveCtx.create (junk := contextStatic comb22) (flags := 1) (Or.inr (Or.inl rfl)) rfl)
    (Hash.beBytes_length _ _) ?_
  have hb : beNat (beBytes 32 1) = 1 := by decide +kernel
  rw [C28_create _ _ (Hash.beBytes_length _ _) (by rw [hb]) (by rw [hb]; decide +kernel), hb,
    keypairObject, show (1 : Fn).val = 1 by decide +kernel]
  exact LiveCtx.create (junk := contextStatic comb22) (flags := 1) (Or.inr (Or.inl rfl)) rfl

/-- A keypair with the secret key 1, tweaked by 5, then by 7. -/
example : KeypairMade (keypairObject 1) ∧ KeypairMade (keypairObject (evenKey (evenKey 1 + 5) + 7)) ∧
    ¬ KeypairMade (List.replicate 96 0) := by
  have h0 := keypairMade_one
  have e1 : (evenKey 1 + 5 : Fn) ≠ 0 := by
    unfold evenKey; split <;> decide +kernel
  have e2 : evenKey (evenKey 1 + 5 : Fn) + 7 ≠ 0 := by
    unfold evenKey; split <;> split <;> decide +kernel
  have b5 : beNat (beBytes 32 5) = 5 := by decide +kernel
  have b7 : beNat (beBytes 32 7) = 7 := by decide +kernel
  have h1 : KeypairMade (keypairObject (evenKey 1 + 5)) := by
    refine KeypairMade.tweak h0 (tweak := beBytes 32 5) (Hash.beBytes_length _ _) ?_
    have := (C28_tweak (d := 1) (by decide +kernel) (tweak := beBytes 32 5) (Hash.beBytes_length _ _)).1
    rw [b5] at this
    exact this ⟨by decide +kernel, e1⟩
  refine ⟨h0, ?_, fun h => ?_⟩
  · refine KeypairMade.tweak h1 (tweak := beBytes 32 7) (Hash.beBytes_length _ _) ?_
    have := (C28_tweak (d := evenKey 1 + 5) e1 (tweak := beBytes 32 7) (Hash.beBytes_length _ _)).1
    rw [b7] at this
    exact this ⟨by decide +kernel, e2⟩
  · obtain ⟨d, hd, e⟩ := C28_made h
    have := congrArg (fun b => beNat (b.take 32)) e
    simp only [keypairObject_take] at this
    rw [beNat_beBytes, Nat.mod_eq_of_lt (fn_lt d)] at this
    exact hd ((ZMod.val_eq_zero d).1 (this.symm.trans (by decide +kernel)))

end Secp
