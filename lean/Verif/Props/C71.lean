import Verif.Proof.LimbEllswift
import Verif.Props.C48
import Verif.Props.C50
import Verif.Props.C63
import Verif.Props.C69

/-!
# C71: ElligatorSwift on machine words, whichever field implementation is compiled in

As `Verif/Props/C69.lean`, for the functions of `modules/ellswift`: with every field element in 52-bit or
in 26-bit limbs the return value, the number of callback calls and every output byte are those of the
functions over the integers modulo `p`, to which C48 to C50 and C63 apply.  Two parties whose libraries are
compiled for different machines agree on the shared secret.

`fuel` bounds the iterations of the search for an encoding, and the functions over limbs end within it when
those over `Fp` do.
-/

namespace Secp
open Model Spec

attribute [local instance] safegcdInv safegcdInv32

noncomputable local instance memRep5'' : MemRep Fe5 := (Fe5.memRep safegcdInv_ok).some
noncomputable local instance memRep10'' : MemRep Fe10 := (Fe10.memRep safegcdInv32_ok).some

/-! ### Equality with the functions over `Fp` -/

theorem C71_ellswift_encode (fuel : ℕ) (ell64 pubkey rnd32 : Option Bytes) :
    Limb.ellswiftEncode Fe5 fuel ell64 pubkey rnd32 = ellswiftEncode fuel ell64 pubkey rnd32 ∧
    Limb.ellswiftEncode Fe10 fuel ell64 pubkey rnd32 = ellswiftEncode fuel ell64 pubkey rnd32 :=
  ⟨Limb.ellswiftEncode_eq _ _ _ _, Limb.ellswiftEncode_eq _ _ _ _⟩

/-- The three contexts are any that a program can hold, made with any seeds. -/
theorem C71_ellswift_create {c5 : Limb.Ctx Fe5} {c10 : Limb.Ctx Fe10} {C : Ctx} (h5 : Limb.LiveCtx c5)
    (h10 : Limb.LiveCtx c10) (h : LiveCtx C) (fuel : ℕ) (ell64 seckey32 auxrnd32 : Option Bytes) :
    Limb.ellswiftCreate c5 fuel ell64 seckey32 auxrnd32 = ellswiftCreate C fuel ell64 seckey32 auxrnd32 ∧
    Limb.ellswiftCreate c10 fuel ell64 seckey32 auxrnd32 = ellswiftCreate C fuel ell64 seckey32 auxrnd32 := by
  have key : ∀ X, LiveCtx X →
      ellswiftCreate X fuel ell64 seckey32 auxrnd32 = ellswiftCreate C fuel ell64 seckey32 auxrnd32 := by
    intro X hX
    unfold ellswiftCreate
    simp only [ecmultGenIsBuilt, hX.ok.built, h.ok.built, createHelper_same hX h]
  obtain ⟨X, hX, l⟩ := Limb.live_limb h5
  obtain ⟨Y, hY, l'⟩ := Limb.live_limb h10
  exact ⟨(Limb.ellswiftCreate_eq l _ _ _ _).trans (key X hX), (Limb.ellswiftCreate_eq l' _ _ _ _).trans (key Y hY)⟩

theorem C71_ellswift_decode (pubkey : Option Bytes) {ell64 : Option Bytes} (hl : ∀ e ∈ ell64, e.length = 64) :
    Limb.ellswiftDecode Fe5 pubkey ell64 = ellswiftDecode pubkey ell64 ∧
    Limb.ellswiftDecode Fe10 pubkey ell64 = ellswiftDecode pubkey ell64 :=
  ⟨Limb.ellswiftDecode_eq _ fun e he => (hl e he).ge, Limb.ellswiftDecode_eq _ fun e he => (hl e he).ge⟩

/-- The key exchange, with any hash function. -/
theorem C71_ellswift_xdh (output : Option Bytes) {ellA64 ellB64 : Option Bytes}
    (hA : ∀ e ∈ ellA64, e.length = 64) (hB : ∀ e ∈ ellB64, e.length = 64) (seckey32 : Option Bytes)
    (party : Int) (hashfp : Option EllswiftHash) :
    Limb.ellswiftXdh Fe5 output ellA64 ellB64 seckey32 party hashfp =
      ellswiftXdh output ellA64 ellB64 seckey32 party hashfp ∧
    Limb.ellswiftXdh Fe10 output ellA64 ellB64 seckey32 party hashfp =
      ellswiftXdh output ellA64 ellB64 seckey32 party hashfp :=
  ⟨Limb.ellswiftXdh_eq _ (fun e he => (hA e he).ge) (fun e he => (hB e he).ge) _ _ _,
    Limb.ellswiftXdh_eq _ (fun e he => (hA e he).ge) (fun e he => (hB e he).ge) _ _ _⟩

/-! ### What this gives -/

/-- C48 on machine words: every 64-byte string decodes, to the point that BIP-324 specifies. -/
theorem C71_decode (old : Bytes) {ell : Bytes} (hl : ell.length = 64) :
    ∃ P, EllDecodes ell P ∧
      Limb.ellswiftDecode Fe5 (some old) (some ell) = ⟨1, 0, some (keyObject P)⟩ ∧
      Limb.ellswiftDecode Fe10 (some old) (some ell) = ⟨1, 0, some (keyObject P)⟩ := by
  obtain ⟨P, hP, e⟩ := C48_decode old hl
  obtain ⟨f, f'⟩ := C71_ellswift_decode (some old) (ell64 := some ell) (by simpa using hl)
  exact ⟨P, hP, f.trans e, f'.trans e⟩

/-- C63 on machine words: encoding a public key gives the string that the specified search finds, the same
one in both builds. -/
theorem C71_encode {P : Pt} (hP : P ≠ 0) {ell : Bytes} (hl : ell.length = 64) {rnd : Bytes}
    (hr : rnd.length = 32) (fuel : ℕ) :
    let found := ((List.range fuel).findSome? (ellTry (ellEncodeSeed P rnd) (ptX P : Fp) (ptY P : Fp))).map
      fun e => (⟨1, 0, some e⟩ : Out (Option Bytes))
    Limb.ellswiftEncode Fe5 fuel (some ell) (some (keyObject P)) (some rnd) = found ∧
    Limb.ellswiftEncode Fe10 fuel (some ell) (some (keyObject P)) (some rnd) = found := by
  intro found
  obtain ⟨f, f'⟩ := C71_ellswift_encode fuel (some ell) (some (keyObject P)) (some rnd)
  exact ⟨f.trans (C63_encode hP hl hr fuel), f'.trans (C63_encode hP hl hr fuel)⟩

/-- C49 on machine words: an encoding that one build makes decodes to the key in both. -/
theorem C71_round_trip {P : Pt} (hP : P ≠ 0) {ell e : Bytes} (hl : ell.length = 64) (rnd : Bytes) {fuel : ℕ}
    (h : Limb.ellswiftEncode Fe5 fuel (some ell) (some (keyObject P)) (some rnd) = some ⟨1, 0, some e⟩ ∨
      Limb.ellswiftEncode Fe10 fuel (some ell) (some (keyObject P)) (some rnd) = some ⟨1, 0, some e⟩)
    (hu : ellU e ≠ 0) (old : Bytes) :
    Limb.ellswiftDecode Fe5 (some old) (some e) = ⟨1, 0, some (keyObject P)⟩ ∧
    Limb.ellswiftDecode Fe10 (some old) (some e) = ⟨1, 0, some (keyObject P)⟩ := by
  obtain ⟨f, f'⟩ := C71_ellswift_encode fuel (some ell) (some (keyObject P)) (some rnd)
  rw [f, f', or_self] at h
  obtain ⟨e', i1, i2, i3⟩ := C49_encode hP hl rnd h
  have i1 := Option.some.inj (congrArg Out.val i1)
  subst i1
  obtain ⟨g, g'⟩ := C71_ellswift_decode (some old) (ell64 := some e) (by simpa using i2)
  exact ⟨g.trans (i3 hu old), g'.trans (i3 hu old)⟩

/-- C50 on machine words: the BIP-324 exchange between a party on 52-bit limbs and one on 26-bit limbs.
Both make their encodings with any randomness (not hitting a multiple of `p`) in any context, and get the
same shared secret. -/
theorem C71_bip324_flow {c5 : Limb.Ctx Fe5} {c10 : Limb.Ctx Fe10} (h5 : Limb.LiveCtx c5)
    (h10 : Limb.LiveCtx c10) {a b : Bytes}
    (ha : a.length = 32) (hb : b.length = 32) (ha1 : 1 ≤ beNat a) (han : beNat a < n)
    (hb1 : 1 ≤ beNat b) (hbn : beNat b < n) {ea eb a64 b64 out : Bytes} (hea : ea.length = 64)
    (heb : eb.length = 64) (ho : out.length = 32) (auxa auxb : Option Bytes) {fa fb : ℕ}
    (hA : Limb.ellswiftCreate c5 fa (some ea) (some a) auxa = some ⟨1, 0, some a64⟩) (ua : ellU a64 ≠ 0)
    (hB : Limb.ellswiftCreate c10 fb (some eb) (some b) auxb = some ⟨1, 0, some b64⟩) (ub : ellU b64 ≠ 0) :
    let k := taggedHash bip324Tag (a64 ++ b64 ++ beBytes 32 (ptX ((beNat a * beNat b) • G)))
    Limb.ellswiftXdh Fe5 (some out) (some a64) (some b64) (some a) 0 (some ellswiftHashBip324) =
      ⟨1, 0, some k⟩ ∧
    Limb.ellswiftXdh Fe10 (some out) (some a64) (some b64) (some b) 1 (some ellswiftHashBip324) =
      ⟨1, 0, some k⟩ := by
  intro k
  obtain ⟨C, hC, -⟩ := Limb.live_limb h5
  rw [(C71_ellswift_create h5 h10 hC _ _ _ _).1] at hA
  rw [(C71_ellswift_create h5 h10 hC _ _ _ _).2] at hB
  have la : a64.length = 64 := by
    obtain ⟨e, i1, i2, -⟩ := C49_create hC ha ha1 han hea auxa hA
    have i1 := Option.some.inj (congrArg Out.val i1)
    rw [i1]; exact i2
  have lb : b64.length = 64 := by
    obtain ⟨e, i1, i2, -⟩ := C49_create hC hb hb1 hbn heb auxb hB
    have i1 := Option.some.inj (congrArg Out.val i1)
    rw [i1]; exact i2
  obtain ⟨r1, r2⟩ := C50_bip324_flow hC hC ha hb ha1 han hb1 hbn hea heb ho auxa auxb hA ua hB ub
  rw [(C71_ellswift_xdh (some out) (ellA64 := some a64) (ellB64 := some b64) (by simpa using la)
    (by simpa using lb) (some a) 0 _).1, (C71_ellswift_xdh (some out) (ellA64 := some a64) (ellB64 := some b64)
    (by simpa using la) (by simpa using lb) (some b) 1 _).2]
  exact ⟨r1, r2⟩

/-! ### The hypotheses can be met -/

/-- The search over limbs ends after one iteration for the generator and zero randomness. -/
example : (Limb.ellswiftEncode Fe5 1 (some (zeros 64)) (some (keyObject G)) (some (zeros 32))).isSome = true ∧
    (Limb.ellswiftEncode Fe10 1 (some (zeros 64)) (some (keyObject G)) (some (zeros 32))).isSome = true := by
  rw [(C71_ellswift_encode _ _ _ _).1, (C71_ellswift_encode _ _ _ _).2]
  have : keyObject G = (beBytes 32 gx).reverse ++ (beBytes 32 gy).reverse := by decide +kernel
  rw [this]
  decide +kernel

/-- Two parties with the secret keys 1 and n - 1, on different limbs, meet all hypotheses of the exchange. -/
example : ∃ (c5 : Limb.Ctx Fe5) (c10 : Limb.Ctx Fe10) (a64 b64 : Bytes), Limb.LiveCtx c5 ∧ Limb.LiveCtx c10 ∧
    Limb.ellswiftCreate c5 4 (some (zeros 64)) (some (beBytes 32 1)) none = some ⟨1, 0, some a64⟩ ∧
    ellU a64 ≠ 0 ∧
    Limb.ellswiftCreate c10 4 (some (zeros 64)) (some (beBytes 32 (n - 1))) none = some ⟨1, 0, some b64⟩ ∧
    ellU b64 ≠ 0 := by
  obtain ⟨c5, h5⟩ := exLimbCtx Fe5
  obtain ⟨c10, h10⟩ := exLimbCtx Fe10
  obtain ⟨C, hC, -⟩ := Limb.live_limb h5
  obtain ⟨a64, b64, e1, e2, e3, e4⟩ := exEllCreate C hC
  refine ⟨c5, c10, a64, b64, h5, h10, ?_, e2, ?_, e4⟩
  · rw [(C71_ellswift_create h5 h10 hC _ _ _ _).1]; exact e1
  · rw [(C71_ellswift_create h5 h10 hC _ _ _ _).2]; exact e3

end Secp
