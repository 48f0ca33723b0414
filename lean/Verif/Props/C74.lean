import Verif.Proof.Asm.FeArmRep
import Verif.Props.C69
import Verif.Props.C70
import Verif.Props.C71

/-!
# C74: the API of a build with the ARM assembly

`FeArm` (Verif/Model/Asm/FeArm.lean) is the field of the 32-bit build with `--with-asm=arm32`: every multiplication and
squaring of field elements, in the point arithmetic, the square roots and the rest of the code, runs the instructions
of `asm/field_10x26_arm.s` on a machine.  `Arm.Caller` is any choice of registers, addresses, stack and remaining memory at
these calls.  For all inputs the API functions of that build return the same values, call the callbacks as often and
write the same bytes as the functions over the integers modulo `p`, to which the properties C01 to C56 apply, and so
as the builds of C69 to C71.
-/

namespace Secp
open Model Spec

seal keyObject beBytes keysHash compressed

variable [Arm.Caller]

noncomputable local instance memRepArm : MemRep FeArm := FeArm.memRep.some

/-! ### The code under the field interface -/

/-- Multiplication and squaring by the assembly, for all elements of magnitude at most 8 (field.h:258-273): the limbs
are those of the C code. -/
theorem C74_mul {a b : FeArm} {v w : Fp} (ha : a.fe.Rep 8 v) (hb : b.fe.Rep 8 w) :
    FeOps.mul a b = ⟨Fe10.mul a.fe b.fe⟩ ∧ FeOps.sqr a = ⟨Fe10.sqr a.fe⟩ :=
  ⟨congrArg FeArm.mk (FeArm.mul_fe ha hb), congrArg FeArm.mk (FeArm.sqr_fe ha)⟩

/-! ### Keys -/

theorem C74_keys (pubkey pubkey' input output tweak32 : Option Bytes) (outputlen : Option ℕ) (flags : UInt32)
    (pubkeys : Option (List (Option Bytes))) (n : ℕ) :
    Limb.ecPubkeyParse FeArm pubkey input = ecPubkeyParse pubkey input ∧
    Limb.ecPubkeySerialize FeArm output outputlen pubkey flags = ecPubkeySerialize output outputlen pubkey flags ∧
    Limb.ecPubkeyCmp FeArm pubkey pubkey' = ecPubkeyCmp pubkey pubkey' ∧
    Limb.ecPubkeyNegate FeArm pubkey = ecPubkeyNegate pubkey ∧
    Limb.ecPubkeyTweakAdd FeArm pubkey tweak32 = ecPubkeyTweakAdd pubkey tweak32 ∧
    Limb.ecPubkeyTweakMul FeArm pubkey tweak32 = ecPubkeyTweakMul pubkey tweak32 ∧
    Limb.ecPubkeyCombine FeArm output pubkeys n = ecPubkeyCombine output pubkeys n :=
  ⟨Limb.ecPubkeyParse_eq _ _, Limb.ecPubkeySerialize_eq _ _ _ _, Limb.ecPubkeyCmp_eq _ _, Limb.ecPubkeyNegate_eq _,
    Limb.ecPubkeyTweakAdd_eq _ _, Limb.ecPubkeyTweakMul_eq _ _, Limb.ecPubkeyCombine_eq _ _ _⟩

/-- X-only keys and key pairs.  `Canon` is as in C69. -/
theorem C74_xonly {key key' keypair input32 : Option Bytes} (hi : ∀ b ∈ input32, b.length = 32)
    (hk : ∀ b ∈ key, Canon b) (hk' : ∀ b ∈ key', Canon b) (hp : ∀ b ∈ keypair, Canon (b.drop 32))
    (out internal tweak32 : Option Bytes) (parity : Option ℤ) (par : ℤ) :
    Limb.xonlyPubkeyParse FeArm out input32 = xonlyPubkeyParse out input32 ∧
    Limb.xonlyPubkeySerialize FeArm out key = xonlyPubkeySerialize out key ∧
    Limb.xonlyPubkeyCmp FeArm key key' = xonlyPubkeyCmp key key' ∧
    Limb.xonlyPubkeyFromPubkey FeArm out parity key = xonlyPubkeyFromPubkey out parity key ∧
    Limb.xonlyPubkeyTweakAdd FeArm out internal tweak32 = xonlyPubkeyTweakAdd out internal tweak32 ∧
    Limb.xonlyPubkeyTweakAddCheck FeArm out par internal tweak32 = xonlyPubkeyTweakAddCheck out par internal tweak32 ∧
    Limb.keypairXonlyPub FeArm out parity keypair = keypairXonlyPub out parity keypair ∧
    Limb.keypairXonlyTweakAdd FeArm keypair tweak32 = keypairXonlyTweakAdd keypair tweak32 :=
  ⟨Limb.xonlyPubkeyParse_eq _ fun b hb => (hi b hb).ge, Limb.xonlyPubkeySerialize_eq _ hk, Limb.xonlyPubkeyCmp_eq hk hk',
    Limb.xonlyPubkeyFromPubkey_eq _ _ hk, Limb.xonlyPubkeyTweakAdd_eq _ _ _, Limb.xonlyPubkeyTweakAddCheck_eq _ _ _ _,
    Limb.keypairXonlyPub_eq _ _ hp, Limb.keypairXonlyTweakAdd_eq _ hp⟩

/-! ### Verification, recovery, key exchange -/

theorem C74_verify_functions {sig64 key : Option Bytes} (hs : ∀ b ∈ sig64, b.length = 64) (hk : ∀ b ∈ key, Canon b)
    (sig msg pubkey output scalar : Option Bytes) (msglen : ℕ) (hashfp : Option EcdhHash) :
    Limb.ecdsaVerify FeArm sig msg pubkey = ecdsaVerify sig msg pubkey ∧
    Limb.ecdsaRecover FeArm output sig msg = ecdsaRecover output sig msg ∧
    Limb.ecdh FeArm output pubkey scalar hashfp = ecdh output pubkey scalar hashfp ∧
    Limb.schnorrsigVerify FeArm sig64 msg msglen key = schnorrsigVerify sig64 msg msglen key :=
  ⟨Limb.ecdsaVerify_eq _ _ _, Limb.ecdsaRecover_eq _ _ _, Limb.ecdh_eq _ _ _ _,
    Limb.schnorrsigVerify_eq (fun b hb => by rw [hs b hb]; omega) _ _ hk⟩

theorem C74_ellswift {ellA64 ellB64 : Option Bytes} (hA : ∀ e ∈ ellA64, e.length = 64)
    (hB : ∀ e ∈ ellB64, e.length = 64) (fuel : ℕ) (out pubkey rnd32 seckey32 : Option Bytes) (party : ℤ)
    (hashfp : Option EllswiftHash) :
    Limb.ellswiftEncode FeArm fuel out pubkey rnd32 = ellswiftEncode fuel out pubkey rnd32 ∧
    Limb.ellswiftDecode FeArm out ellA64 = ellswiftDecode out ellA64 ∧
    Limb.ellswiftXdh FeArm out ellA64 ellB64 seckey32 party hashfp =
      ellswiftXdh out ellA64 ellB64 seckey32 party hashfp :=
  ⟨Limb.ellswiftEncode_eq _ _ _ _, Limb.ellswiftDecode_eq _ fun e he => (hA e he).ge,
    Limb.ellswiftXdh_eq _ (fun e he => (hA e he).ge) (fun e he => (hB e he).ge) _ _ _⟩

/-! ### Functions with a context

The contexts are any that a program can hold, made with any seeds. -/

section
variable {c : Limb.Ctx FeArm} {C : Ctx}

theorem C74_create (hc : Limb.LiveCtx c) (h : LiveCtx C) (fuel : ℕ) (out seckey aux : Option Bytes) :
    Limb.ecPubkeyCreate c out seckey = ecPubkeyCreate C out seckey ∧
    Limb.keypairCreate c out seckey = keypairCreate C out seckey ∧
    Limb.ellswiftCreate c fuel out seckey aux = ellswiftCreate C fuel out seckey aux := by
  obtain ⟨X, hX, l⟩ := Limb.live_limb hc
  refine ⟨(Limb.ecPubkeyCreate_eq l _ _).trans ?_, (Limb.keypairCreate_eq l _ _).trans ?_,
    (Limb.ellswiftCreate_eq l _ _ _ _).trans ?_⟩
  · unfold ecPubkeyCreate
    simp only [ecmultGenIsBuilt, hX.ok.built, h.ok.built, createHelper_same hX h]
  · unfold keypairCreate
    simp only [ecmultGenIsBuilt, hX.ok.built, h.ok.built, createHelper_same hX h]
  · unfold ellswiftCreate
    simp only [ecmultGenIsBuilt, hX.ok.built, h.ok.built, createHelper_same hX h]

/-- Signing, with the default or any other nonce function. -/
theorem C74_sign (hc : Limb.LiveCtx c) (h : LiveCtx C) (fuel : ℕ) (sig msg seckey : Option Bytes) (nf : Option NonceFn)
    (data : Option Bytes) {keypair : Option Bytes} (hk : ∀ b ∈ keypair, Canon (b.drop 32)) (msglen : ℕ)
    (aux : Option Bytes) (ex : Option SchnorrExtra) :
    Limb.ecdsaSign fuel c sig msg seckey nf data = ecdsaSign fuel C sig msg seckey nf data ∧
    Limb.ecdsaSignRecoverable fuel c sig msg seckey nf data = ecdsaSignRecoverable fuel C sig msg seckey nf data ∧
    Limb.schnorrsigSign32 c sig msg keypair aux = schnorrsigSign32 C sig msg keypair aux ∧
    Limb.schnorrsigSignCustom c sig msg msglen keypair ex = schnorrsigSignCustom C sig msg msglen keypair ex := by
  obtain ⟨X, hX, l⟩ := Limb.live_limb hc
  have e := C38_ecdsa_sign_same hX h fuel sig msg seckey nf data
  have e' := C38_schnorr_sign_same hX h sig msg msglen keypair aux ex
  exact ⟨(Limb.ecdsaSign_eq l _ _ _ _ _ _).trans e.1, (Limb.ecdsaSignRecoverable_eq l _ _ _ _ _ _).trans e.2,
    (Limb.schnorrsigSign32_eq l _ _ hk _).trans e'.1, (Limb.schnorrsigSignCustom_eq l _ _ _ hk _).trans e'.2.2⟩

theorem C74_musig_nonce_gen (hc : Limb.LiveCtx c) (h : LiveCtx C)
    (secnonce pubnonce rand seckey pubkey keypair msg : Option Bytes) {cache : Option Bytes}
    (hca : ∀ b ∈ cache, Canon (b.drop 4)) (extra : Option Bytes) (cnt : UInt64) :
    Limb.musigNonceGen c secnonce pubnonce rand seckey pubkey msg cache extra =
      musigNonceGen C secnonce pubnonce rand seckey pubkey msg cache extra ∧
    Limb.musigNonceGenCounter c secnonce pubnonce cnt keypair msg cache extra =
      musigNonceGenCounter C secnonce pubnonce cnt keypair msg cache extra := by
  obtain ⟨X, hX, l⟩ := Limb.live_limb hc
  have e := C38_musig_nonce_gen_same hX h secnonce pubnonce rand seckey pubkey keypair msg cache extra cnt
  exact ⟨(Limb.musigNonceGen_eq l _ _ _ _ _ _ hca _).trans e.1,
    (Limb.musigNonceGenCounter_eq l _ _ _ _ _ hca _).trans e.2⟩

end

/-! ### MuSig -/

theorem C74_musig {cache keypair : Option Bytes} (hc : ∀ b ∈ cache, Canon (b.drop 4))
    (hk : ∀ b ∈ keypair, Canon (b.drop 32)) (out old tweak32 in66 nonce msg32 secnonce session sig pubkey : Option Bytes)
    (pubkeys nonces : Option (List Bytes)) :
    Limb.musigPubkeyAgg FeArm out old pubkeys = musigPubkeyAgg out old pubkeys ∧
    Limb.musigPubkeyGet FeArm out cache = musigPubkeyGet out cache ∧
    Limb.musigEcTweakAdd FeArm out cache tweak32 = musigEcTweakAdd out cache tweak32 ∧
    Limb.musigXonlyTweakAdd FeArm out cache tweak32 = musigXonlyTweakAdd out cache tweak32 ∧
    Limb.musigPubnonceParse FeArm out in66 = musigPubnonceParse out in66 ∧
    Limb.musigPubnonceSerialize FeArm out nonce = musigPubnonceSerialize out nonce ∧
    Limb.musigAggnonceParse FeArm out in66 = musigAggnonceParse out in66 ∧
    Limb.musigAggnonceSerialize FeArm out nonce = musigAggnonceSerialize out nonce ∧
    Limb.musigNonceAgg FeArm out nonces = musigNonceAgg out nonces ∧
    Limb.musigNonceProcess FeArm session nonce msg32 cache = musigNonceProcess session nonce msg32 cache ∧
    Limb.musigPartialSign FeArm out secnonce keypair cache session =
      musigPartialSign out secnonce keypair cache session ∧
    Limb.musigPartialSigVerify FeArm sig nonce pubkey cache session =
      musigPartialSigVerify sig nonce pubkey cache session :=
  ⟨Limb.musigPubkeyAgg_eq _ _ _, Limb.musigPubkeyGet_eq _ _, Limb.musigEcTweakAdd_eq _ _ _,
    Limb.musigXonlyTweakAdd_eq _ _ hc, Limb.musigPubnonceParse_eq _ _, Limb.musigPubnonceSerialize_eq _ _,
    Limb.musigAggnonceParse_eq _ _, Limb.musigAggnonceSerialize_eq _ _, Limb.musigNonceAgg_eq _ _,
    Limb.musigNonceProcess_eq _ _ _ hc, Limb.musigPartialSign_eq _ _ hk hc _, Limb.musigPartialSigVerify_eq _ _ _ hc _⟩

/-! ### What this says about the main properties -/

/-- C01 in the ARM build. -/
theorem C74_parse (old input : Bytes) :
    ((Limb.ecPubkeyParse FeArm (some old) (some input)).ret = 1 ↔ Sec1Valid input) ∧
    ∀ P : Pt, P ≠ 0 → (input = compressed P ∨ input = uncompressed P ∨ input = hybrid P) →
      Limb.ecPubkeyParse FeArm (some old) (some input) = ⟨1, 0, some (keyObject P)⟩ := by
  rw [Limb.ecPubkeyParse_eq]
  exact ⟨(C01_parse_accepts_iff old input).1, fun P hP hi => C01_parse_value old hP hi⟩

/-- C09 in the ARM build. -/
theorem C74_verify {Q : Pt} (hQ : Q ≠ 0) (r s : Fn) {msg : Bytes} (hl : msg.length = 32) :
    Limb.ecdsaVerify FeArm (some (sigObject r s)) (some msg) (some (keyObject Q)) = ⟨1, 0, ()⟩ ↔
      EcdsaValid Q (msgScalar msg) r s ∧ s.val ≤ (n - 1) / 2 := by
  rw [Limb.ecdsaVerify_eq]
  exact C09_verify_accepts hQ r s hl

/-- C10 in the ARM build. -/
theorem C74_sign_verifies {c : Limb.Ctx FeArm} (hc : Limb.LiveCtx c) {fuel : ℕ} {msg seckey : Bytes}
    (hm : msg.length = 32) (hk : seckey.length = 32) (nf : Option NonceFn) (data : Option Bytes) (old old' : Bytes)
    {sig : Bytes} (h : Limb.ecdsaSign fuel c (some old) (some msg) (some seckey) nf data = some ⟨1, 0, some sig⟩) :
    ∃ pk, Limb.ecPubkeyCreate c (some old') (some seckey) = ⟨1, 0, some pk⟩ ∧
      Limb.ecdsaVerify FeArm (some sig) (some msg) (some pk) = ⟨1, 0, ()⟩ := by
  obtain ⟨C, hC, -⟩ := Limb.live_limb hc
  have e := (C74_sign hc hC fuel (some old) (some msg) (some seckey) nf data (keypair := none) (by simp) 0 none none).1
  rw [e] at h
  obtain ⟨pk, k1, k2, -⟩ := C10_sign_verifies hC hC hm hk nf data old old' h
  exact ⟨pk, ((C74_create hc hC 0 (some old') (some seckey) none).1).trans k1, (Limb.ecdsaVerify_eq _ _ _).trans k2⟩

/-- C23 in the ARM build. -/
theorem C74_schnorr_verify {P : Pt} (hP : P ≠ 0) {sig : Bytes} (hs : sig.length = 64) (msg : Bytes)
    {msglen : ℕ} (hm : msglen ≤ msg.length) :
    (Limb.schnorrsigVerify FeArm (some sig) (some msg) msglen (some (keyObject P))).ret = 1 ↔
      SchnorrValid P (msg.take msglen) sig := by
  rw [Limb.schnorrsigVerify_eq (sig := some sig) (by simp [hs]) (some msg) msglen
    (pk := some (keyObject P)) (by simpa using C69_objects.2.1 P)]
  exact (C23_verify_iff hP hs msg hm).1

/-- C21 in the ARM build. -/
theorem C74_shared_secret {Q : Pt} (hQ : Q ≠ 0) {out : Bytes} (ho : out.length = 32) {a : Bytes}
    (ha : a.length = 32) (h1 : 1 ≤ beNat a) (hn : beNat a < n) :
    Limb.ecdh FeArm (some out) (some (keyObject Q)) (some a) none =
      ⟨1, 0, some (sha256 (compressed (beNat a • Q)))⟩ := by
  rw [Limb.ecdh_eq]
  exact C21_default_hash hQ ho ha h1 hn

/-! ### The hypotheses can be met -/

omit [Arm.Caller] in
/-- A state with ten limbs at 1000 and ten at 2000; the result goes to 1000, over the first operand. -/
def exCallSt (a b : Fe10) : Arm.St where
  reg := fun r => if r = 0 ∨ r = 1 then 1000 else if r = 2 then 2000 else if r = 13 then 4096 else 0
  cf := false
  mem := fun x =>
    if x < 2000 then [a.n0, a.n1, a.n2, a.n3, a.n4, a.n5, a.n6, a.n7, a.n8, a.n9].getD ((x - 1000) / 4) 0
    else [b.n0, b.n1, b.n2, b.n3, b.n4, b.n5, b.n6, b.n7, b.n8, b.n9].getD ((x - 2000) / 4) 0

omit [Arm.Caller] in
theorem getD_lt {l : List ℕ} {k : ℕ} (h : ∀ x ∈ l, x < k) (hk : 0 < k) (i : ℕ) : l.getD i 0 < k := by
  rw [List.getD_eq_getElem?_getD]
  cases e : l[i]? with
  | none => exact hk
  | some x => exact h x (List.mem_of_getElem? e)

omit [Arm.Caller] in
theorem limbs_lt {a : Fe10} (h : a.Mag 8) (i : ℕ) :
    [a.n0, a.n1, a.n2, a.n3, a.n4, a.n5, a.n6, a.n7, a.n8, a.n9].getD i 0 < 2 ^ 32 := by
  obtain ⟨a0, a1, a2, a3, a4, a5, a6, a7, a8, a9⟩ := h
  refine getD_lt (fun x hx => ?_) (by norm_num) i
  simp only [List.mem_cons, List.not_mem_nil, or_false] at hx
  rcases hx with h | h | h | h | h | h | h | h | h | h <;> omega

omit [Arm.Caller] in
theorem exCallSt_call {a b : Fe10} (ha : a.Mag 8) (hb : b.Mag 8) : Arm.Call (exCallSt a b) [0, 1, 2] := by
  refine ⟨fun r => ?_, fun x => ?_, ?_, fun r hr => ?_, fun r hr x h1 h2 => ?_⟩
  · change (if r = 0 ∨ r = 1 then 1000 else if r = 2 then 2000 else if r = 13 then 4096 else 0) < 2 ^ 32
    split_ifs <;> omega
  · change (if x < 2000 then _ else _) < 2 ^ 32
    split_ifs
    · exact limbs_lt ha _
    · exact limbs_lt hb _
  · exact (by decide : 84 ≤ 4096 ∧ 8 ∣ 4096)
  · simp only [List.mem_cons, List.not_mem_nil, or_false] at hr
    rcases hr with rfl | rfl | rfl
    · exact (by decide : 1000 + 40 ≤ 2 ^ 32 ∧ 4 ∣ 1000)
    · exact (by decide : 1000 + 40 ≤ 2 ^ 32 ∧ 4 ∣ 1000)
    · exact (by decide : 2000 + 40 ≤ 2 ^ 32 ∧ 4 ∣ 2000)
  · simp only [List.mem_cons, List.not_mem_nil, or_false] at hr
    have h2 : 4096 - 84 ≤ x ∧ x < 4096 := h2
    rcases hr with rfl | rfl | rfl
    · have h1 : 1000 ≤ x ∧ x < 1000 + 40 := h1
      omega
    · have h1 : 1000 ≤ x ∧ x < 1000 + 40 := h1
      omega
    · have h1 : 2000 ≤ x ∧ x < 2000 + 40 := h1
      omega

omit [Arm.Caller] in
theorem exCallSt_a (a b : Fe10) : Arm.fe10At (exCallSt a b).mem ((exCallSt a b).reg 1) = a := by
  cases a; simp [Arm.fe10At, exCallSt]

omit [Arm.Caller] in
theorem exCallSt_b (a b : Fe10) : Arm.fe10At (exCallSt a b).mem ((exCallSt a b).reg 2) = b := by
  cases b; simp [Arm.fe10At, exCallSt]

omit [Arm.Caller] in
/-- Callers exist: these always put the operands at the same addresses. -/
@[reducible]
def exCaller : Arm.Caller where
  mulSt := exCallSt
  sqrSt a := exCallSt a a
  mul_call := exCallSt_call
  mul_a _ _ := exCallSt_a _ _
  mul_b _ _ := exCallSt_b _ _
  sqr_call ha := by
    obtain ⟨h1, h2, h3, h4, h5⟩ := exCallSt_call ha ha
    exact ⟨h1, h2, h3, fun r hr => h4 r (by simp at hr ⊢; omega), fun r hr => h5 r (by simp at hr ⊢; omega)⟩
  sqr_a _ := exCallSt_a _ _

omit [Arm.Caller] in
/-- With these callers the kernel runs the assembly on the largest limbs of magnitude 8. -/
example : @FeOps.mul FeArm (@FeArm.instFeOps exCaller) ⟨maxFe10 8⟩ ⟨maxFe10 8⟩ =
    ⟨Fe10.mul (maxFe10 8) (maxFe10 8)⟩ := by
  have : ∀ a b : FeArm, a.fe = b.fe → a = b := fun a b h => by cases a; cases b; exact congrArg _ h
  exact this _ _ (by decide +kernel)

/-- Contexts exist, and the generator's encoding is accepted. -/
example : (∃ c : Limb.Ctx FeArm, Limb.LiveCtx c) ∧
    (Limb.ecPubkeyParse FeArm (some []) (some (compressed G))).ret = 1 := by
  refine ⟨exLimbCtx FeArm, ?_⟩
  rw [(C74_parse [] (compressed G)).2 G G_ne_zero (.inl rfl)]

end Secp
