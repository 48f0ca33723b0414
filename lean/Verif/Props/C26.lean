import Verif.Proof.Extrakeys
import Verif.Props.C03

/-! # C26: x-only public keys

`xonly P` is the 32-byte encoding of the x coordinate, `evenY P` is `P` or `-P`, whichever has even y.
`keyObject` is the layout shared by public key objects and x-only key objects. -/

namespace Secp
open WeierstrassCurve Model Spec

/-- The strings that `XonlyValid` admits are the encodings of points. -/
theorem C26_xonlyValid_iff {b : Bytes} (hl : b.length = 32) :
    XonlyValid b ↔ ∃ P : Pt, P ≠ 0 ∧ ptY P % 2 = 0 ∧ b = xonly P := by
  constructor
  · rintro ⟨hx, y, hy⟩
    have h := (geSetXoVar_spec ((beNat b : ℕ) : Fp) false).1.2 ⟨y, hy⟩
    obtain ⟨P, hP, e, ho⟩ := geSetXoVar_exists hx h
    refine ⟨P, hP, by simpa using ho, beNat_inj (by rw [hl, xonly_length]) ?_⟩
    rw [beNat_xonly, e]
  · rintro ⟨P, hP, -, he⟩
    rw [he, XonlyValid, beNat_xonly]
    refine ⟨ptX_lt P, ?_⟩
    exact (geSetXoVar_spec _ (decide (ptY P % 2 = 1))).1.1 (geSetXoVar_rep hP (by simp)).1

theorem xonlyParse_point {P : Pt} (hP : P ≠ 0) (hy : ptY P % 2 = 0) (old : Bytes) :
    xonlyPubkeyParse (some old) (some (xonly P)) = ⟨1, 0, some (keyObject P)⟩ := by
  have hb : beNat ((xonly P).take 32) = ptX P := by rw [take32 (xonly_length P), beNat_xonly]
  have hs := feSetB32Limit_lt (b := xonly P) (by rw [hb]; exact ptX_lt P)
  rw [hb] at hs
  obtain ⟨h1, h2⟩ := geSetXoVar_rep (odd := false) hP (by simp [hy])
  simp only [xonlyPubkeyParse, hs, h1, geIsInCorrectSubgroup]
  rw [pubkeySave_rep h2 hP]
  simp

/-- `secp256k1_xonly_pubkey_parse` accepts exactly the encodings of x coordinates of curve points. -/
theorem C26_parse_accepts_iff (old : Bytes) {input : Bytes} (hl : input.length = 32) :
    let o := xonlyPubkeyParse (some old) (some input)
    (o.ret = 1 ↔ XonlyValid input) ∧ (o.ret = 0 ↔ ¬ XonlyValid input) ∧ o.illegal = 0 := by
  by_cases hv : XonlyValid input
  · obtain ⟨P, hP, hy, he⟩ := (C26_xonlyValid_iff hl).1 hv
    have := xonlyParse_point hP hy old
    rw [← he] at this
    rw [this]
    simp [hv]
  · have key : xonlyPubkeyParse (some old) (some input) = ⟨0, 0, some (zeros 64)⟩ := by
      by_cases hx : beNat input < p
      · have hs := feSetB32Limit_lt (b := input) (by rw [take32 hl]; exact hx)
        rw [take32 hl] at hs
        have hg : (geSetXoVar ((beNat input : ℕ) : Fp) false).2 = false := by
          rw [Bool.eq_false_iff]
          exact fun h => hv ⟨hx, (geSetXoVar_spec _ false).1.1 h⟩
        simp [xonlyPubkeyParse, hs, hg]
      · have hs := feSetB32Limit_ge (b := input) (by rw [take32 hl]; exact hx)
        simp [xonlyPubkeyParse, hs]
    rw [key]
    simp [hv]

/-- The generator's x coordinate is accepted, `p` is not. -/
example : (xonlyPubkeyParse (some []) (some (xonly G))).ret = 1 ∧
    (xonlyPubkeyParse (some []) (some (beBytes 32 p))).ret = 0 :=
  ⟨(C26_parse_accepts_iff [] (xonly_length G)).1.2 ((C26_xonlyValid_iff (xonly_length G)).2
      ⟨G, G_ne_zero, by decide +kernel, rfl⟩),
    (C26_parse_accepts_iff [] (Hash.beBytes_length _ _)).2.1.2 fun h => absurd h.1 (by decide +kernel)⟩

/-- The object then holds the even-y point with that x coordinate. -/
theorem C26_parse_value {P : Pt} (hP : P ≠ 0) (old : Bytes) :
    xonlyPubkeyParse (some old) (some (xonly P)) = ⟨1, 0, some (keyObject (evenY P))⟩ := by
  rw [← xonly_evenY]
  exact xonlyParse_point (evenY_ne_zero hP) (ptY_evenY P) old

/-- A point with an odd second coordinate. -/
example := C26_parse_value (neg_ne_zero.2 G_ne_zero) [7]

/-- On failure the object is all zero. -/
theorem C26_parse_failure (old : Bytes) {input : Bytes} (hl : input.length = 32)
    (h : ¬ XonlyValid input) :
    xonlyPubkeyParse (some old) (some input) = ⟨0, 0, some (List.replicate 64 0)⟩ := by
  by_cases hx : beNat input < p
  · have hs := feSetB32Limit_lt (b := input) (by rw [take32 hl]; exact hx)
    rw [take32 hl] at hs
    have hg : (geSetXoVar ((beNat input : ℕ) : Fp) false).2 = false := by
      rw [Bool.eq_false_iff]
      exact fun h' => h ⟨hx, (geSetXoVar_spec _ false).1.1 h'⟩
    simp only [xonlyPubkeyParse, hs, hg, Bool.not_true, Bool.not_false, if_true, Bool.false_eq_true,
      if_false]
    rfl
  · have hs := feSetB32Limit_ge (b := input) (by rw [take32 hl]; exact hx)
    simp only [xonlyPubkeyParse, hs, Bool.not_false, if_true]
    rfl

example := C26_parse_failure [7] (Hash.beBytes_length 32 p) (fun h => absurd h.1 (by decide +kernel))

/-- Serializing a key gives the encoding of its x coordinate. -/
theorem C26_serialize {P : Pt} (hP : P ≠ 0) {out : Bytes} (hl : out.length = 32) :
    xonlyPubkeySerialize (some out) (some (keyObject P)) = ⟨1, 0, some (xonly P)⟩ := by
  obtain ⟨h1, h2, -⟩ := pubkeyLoad_obj hP
  simp only [xonlyPubkeySerialize, h1]
  rw [feGetB32_rep h2 hP, put_zero_full (b := zeros 32) (by rw [hl]; simp [zeros]),
    put_zero_full (by rw [xonly_length]; simp [zeros])]
  rfl

example := C26_serialize (neg_ne_zero.2 G_ne_zero) (out := zeros 32) (by simp [zeros])

/-- Parse then serialize gives back the same 32 bytes. -/
theorem C26_serialize_parse {input : Bytes} (hl : input.length = 32) (hv : XonlyValid input)
    (old : Bytes) {out : Bytes} (ho : out.length = 32) :
    ∃ obj, xonlyPubkeyParse (some old) (some input) = ⟨1, 0, some obj⟩ ∧
      xonlyPubkeySerialize (some out) (some obj) = ⟨1, 0, some input⟩ := by
  obtain ⟨P, hP, hy, he⟩ := (C26_xonlyValid_iff hl).1 hv
  refine ⟨keyObject P, by rw [he]; exact xonlyParse_point hP hy old, ?_⟩
  rw [C26_serialize hP ho, ← he]

example := C26_serialize_parse (xonly_length G) ((C26_xonlyValid_iff (xonly_length G)).2
  ⟨G, G_ne_zero, by decide +kernel, rfl⟩) [] (out := zeros 32) (by simp [zeros])

/-- Serialize then parse gives back the same object, when it holds an even-y point. -/
theorem C26_parse_serialize {P : Pt} (hP : P ≠ 0) (hy : ptY P % 2 = 0) (old : Bytes) {out : Bytes}
    (ho : out.length = 32) :
    ∃ b, xonlyPubkeySerialize (some out) (some (keyObject P)) = ⟨1, 0, some b⟩ ∧
      xonlyPubkeyParse (some old) (some b) = ⟨1, 0, some (keyObject P)⟩ :=
  ⟨xonly P, C26_serialize hP ho, xonlyParse_point hP hy old⟩

example := C26_parse_serialize G_ne_zero (by decide +kernel) [] (out := zeros 32) (by simp [zeros])

/-- `secp256k1_xonly_pubkey_from_pubkey` stores the even-y point with the same x coordinate and reports
the parity of y, when asked (`pk_parity` not NULL). -/
theorem C26_from_pubkey {P : Pt} (hP : P ≠ 0) (old : Bytes) (par : Option Int) :
    xonlyPubkeyFromPubkey (some old) par (some (keyObject P)) =
      ⟨1, 0, (some (keyObject (evenY P)), par.map fun _ => ((ptY P % 2 : ℕ) : Int))⟩ := by
  obtain ⟨h1, h2, -⟩ := pubkeyLoad_obj hP
  obtain ⟨e1, e2⟩ := geEvenY_rep h2 hP
  simp only [xonlyPubkeyFromPubkey, h1, e2]
  rw [pubkeySave_rep e1 (evenY_ne_zero hP)]
  rfl

example := C26_from_pubkey (neg_ne_zero.2 G_ne_zero) [] (some 7)

/-- The x-only key and the parity determine the public key. -/
theorem C26_from_pubkey_injective {P Q : Pt} (hP : P ≠ 0) (hQ : Q ≠ 0) (old old' : Bytes) (a b : Int)
    (h : (xonlyPubkeyFromPubkey (some old) (some a) (some (keyObject P))).val =
      (xonlyPubkeyFromPubkey (some old') (some b) (some (keyObject Q))).val) : P = Q := by
  rw [C26_from_pubkey hP, C26_from_pubkey hQ] at h
  have h1 := keyObject_injective (Option.some.inj (Prod.ext_iff.1 h).1)
  have h2 := Int.ofNat_inj.1 (Option.some.inj (Prod.ext_iff.1 h).2)
  refine pt_ext_parity ?_ h2
  rw [← ptX_evenY P, h1, ptX_evenY]

/-- The generator and its negative give the same x-only key; the parity tells them apart. -/
example : (xonlyPubkeyFromPubkey (some []) (some 0) (some (keyObject G))).val ≠
    (xonlyPubkeyFromPubkey (some []) (some 0) (some (keyObject (-G)))).val := fun h => by
  have e := C26_from_pubkey_injective G_ne_zero (neg_ne_zero.2 G_ne_zero) [] [] 0 0 h
  have := ptY_neg G_ne_zero
  rw [← e, show ptY G % 2 = 0 by decide +kernel] at this
  cases this

theorem xonlyCmpKey_valid {P : Pt} (hP : P ≠ 0) :
    xonlyCmpKey (some (keyObject P)) = (xonly P, 0) := by
  unfold xonlyCmpKey
  rw [C26_serialize hP (by simp [zeros])]
  simp

theorem xonlyCmpKey_invalid {k : Option Bytes} (h : InvalidKey k) :
    xonlyCmpKey k = (zeros 32, 1) := by
  rcases h with rfl | ⟨b, rfl, hb⟩
  · rfl
  · have hq : (pubkeyLoad b).2 = false := by simp [pubkeyLoad, hb]
    simp only [xonlyCmpKey, xonlyPubkeySerialize, hq, Bool.not_false, if_true]

/-- `secp256k1_xonly_pubkey_cmp` is the lexicographic order of the encodings. -/
theorem C26_cmp_lex {P Q : Pt} (hP : P ≠ 0) (hQ : Q ≠ 0) :
    let o := xonlyPubkeyCmp (some (keyObject P)) (some (keyObject Q))
    (o.ret < 0 ↔ xonly P < xonly Q) ∧ (o.ret = 0 ↔ xonly P = xonly Q) ∧
      (0 < o.ret ↔ xonly Q < xonly P) ∧ o.illegal = 0 := by
  simp only [xonlyPubkeyCmp, xonlyCmpKey_valid hP, xonlyCmpKey_valid hQ]
  obtain ⟨h1, h2, h3⟩ := memcmpVar_lt (xonly_length P) (xonly_length Q)
  exact ⟨h1, h2, h3, trivial⟩

/-- The x-only comparison does not see the sign. -/
example : (xonlyPubkeyCmp (some (keyObject G)) (some (keyObject (-G)))).ret = 0 :=
  (C26_cmp_lex G_ne_zero (neg_ne_zero.2 G_ne_zero)).2.1.2 (xonly_neg G).symm

/-- Invalid keys trigger the callback and compare below valid ones. -/
theorem C26_cmp_invalid {k : Option Bytes} (hk : InvalidKey k) {P : Pt} (hP : P ≠ 0) :
    (xonlyPubkeyCmp k (some (keyObject P))).ret < 0 ∧
    (xonlyPubkeyCmp k (some (keyObject P))).illegal = 1 ∧
    0 < (xonlyPubkeyCmp (some (keyObject P)) k).ret ∧
    (xonlyPubkeyCmp (some (keyObject P)) k).illegal = 1 := by
  simp only [xonlyPubkeyCmp, xonlyCmpKey_valid hP, xonlyCmpKey_invalid hk]
  obtain ⟨h1, h2, -⟩ := memcmpVar_lt (k := 32) (a := zeros 32) (b := xonly P) (by simp [zeros])
    (xonly_length P)
  obtain ⟨-, -, h3⟩ := memcmpVar_lt (k := 32) (a := xonly P) (b := zeros 32)
    (xonly_length P) (by simp [zeros])
  have hne : zeros 32 ≠ xonly P := fun e => by
    have := congrArg beNat e
    rw [beNat_xonly, show beNat (zeros 32) = 0 by decide +kernel] at this
    exact hP (ptX_eq_zero.1 this.symm)
  have hlt : zeros 32 < xonly P := by
    rcases lt_trichotomy (memcmpVar (zeros 32) (xonly P) 32) 0 with h | h | h
    · exact h1.1 h
    · exact absurd (h2.1 h) hne
    · exfalso
      have : ∀ {k : ℕ} {b : Bytes}, memcmpVar (List.replicate k 0) b k ≤ 0 := by
        intro k
        induction k with
        | zero => intro b; simp [memcmpVar]
        | succ k ih =>
          intro b
          show (if ((UInt8.toNat 0 : ℕ) : Int) - (((List.headD b 0).toNat : ℕ) : Int) ≠ 0 then
            ((UInt8.toNat 0 : ℕ) : Int) - (((List.headD b 0).toNat : ℕ) : Int)
            else memcmpVar (List.replicate k 0) b.tail k) ≤ 0
          by_cases hh : ((UInt8.toNat 0 : ℕ) : Int) - (((List.headD b 0).toNat : ℕ) : Int) ≠ 0
          · rw [if_pos hh, UInt8.toNat_zero]; omega
          · rw [if_neg hh]; exact ih
      have := this (k := 32) (b := xonly P)
      exact absurd h (not_lt.2 this)
  exact ⟨h1.2 hlt, trivial, h3.2 hlt, trivial⟩

example := C26_cmp_invalid (k := some (zeros 64)) (Or.inr ⟨_, rfl, by decide +kernel⟩) G_ne_zero

/-- The generator and its negative: one x-only key, two parities. -/
example : XonlyValid (beBytes 32 gx) ∧ xonly (-G) = xonly G ∧ -G ≠ G ∧ G ≠ 0 ∧
    ptY G % 2 = 0 ∧ ¬ XonlyValid (beBytes 32 p) := by
  have hy : ptY G % 2 = 0 := by decide +kernel
  have hx : beBytes 32 gx = xonly G := by decide +kernel
  refine ⟨?_, xonly_neg G, fun h => ?_, G_ne_zero, hy, fun h => ?_⟩
  · rw [hx]
    exact (C26_xonlyValid_iff (xonly_length G)).2 ⟨G, G_ne_zero, hy, rfl⟩
  · have := ptY_neg G_ne_zero
    rw [h, hy] at this; cases this
  · exact absurd h.1 (by decide +kernel)

end Secp
