import Verif.Props.C07
import Verif.Proof.Recover

/-! # C15: recoverable signature encoding round-trips -/

namespace Secp
open Model Spec

/-- Parsing with a recovery id in 0..3 returns 1 iff both halves are below `n`. -/
theorem C15_parse {input : Bytes} (hl : input.length = 64) (old : Bytes) {v : ℕ} (hv : v < 4) :
    (beNat (input.take 32) < n ∧ beNat (input.drop 32) < n →
      recoverableParseCompact (some old) (some input) v =
        ⟨1, 0, some (recObject ((beNat (input.take 32) : ℕ) : Fn)
          ((beNat (input.drop 32) : ℕ) : Fn) v)⟩) ∧
    (¬ (beNat (input.take 32) < n ∧ beNat (input.drop 32) < n) →
      recoverableParseCompact (some old) (some input) v =
        ⟨0, 0, some (List.replicate 65 0)⟩) := by
  have e : (input.drop 32).take 32 = input.drop 32 := List.take_of_length_le (by simp [hl])
  have hrec : ¬ ¬ ((v : Int) ≥ 0 ∧ (v : Int) ≤ 3) := by omega
  simp only [recoverableParseCompact, scSetB32, e]
  rw [if_neg hrec, Int.toNat_natCast]
  by_cases h1 : beNat (input.take 32) < n <;> by_cases h2 : beNat (input.drop 32) < n
  · refine ⟨fun _ => ?_, fun h => absurd ⟨h1, h2⟩ h⟩
    rw [if_pos (by simp [h1, h2])]
    rfl
  all_goals
    refine ⟨fun h => by omega, fun _ => ?_⟩
    rw [if_neg (by simp [h1, h2]; try omega)]
    rfl

example := (C15_parse (input := beBytes 32 5 ++ beBytes 32 7) (by decide +kernel) [] (v := 3) (by decide)).1
  (by decide +kernel)
example := (C15_parse (input := beBytes 32 n ++ beBytes 32 7) (by decide +kernel) [] (v := 3) (by decide)).2
  (by decide +kernel)

/-- A recovery id outside 0..3 is an illegal argument: one call of the callback, return 0, and the
object is unchanged. -/
theorem C15_illegal_recid (old input : Bytes) {v : Int} (hv : v < 0 ∨ 3 < v) :
    recoverableParseCompact (some old) (some input) v = ⟨0, 1, some old⟩ := by
  simp only [recoverableParseCompact]
  rw [if_pos (by omega)]
  rfl

example := C15_illegal_recid [] [] (v := 4) (Or.inr (by decide))
example := C15_illegal_recid [] [] (v := -1) (Or.inl (by decide))

/-- Serializing writes `r` and `s` in big endian and the recovery id. -/
theorem C15_serialize (r s : Fn) {v : ℕ} (hv : v < 4) {out : Bytes} (ho : out.length = 64)
    (oldv : Int) :
    recoverableSerializeCompact (some out) (some oldv) (some (recObject r s v)) =
      ⟨1, 0, (some (beBytes 32 r.val ++ beBytes 32 s.val), some v)⟩ := by
  simp only [recoverableSerializeCompact, recoverableLoad_obj r s hv]
  rw [← List.nil_append out, put_at (k := 0) rfl, put_at (by simp [scGetB32_length])]
  simp only [List.nil_append, List.drop_drop, scGetB32_length]
  rw [List.drop_eq_nil_of_le (by omega), List.append_nil]
  rfl

example := C15_serialize 5 (-7) (v := 2) (by decide) (out := zeros 64) (by decide +kernel) 0

/-- Accepted bytes and recovery ids are given back by serialization. -/
theorem C15_parse_serialize {input : Bytes} (hl : input.length = 64) (old : Bytes) {v : Int}
    {out obj : Bytes} (ho : out.length = 64) (oldv : Int)
    (h : recoverableParseCompact (some old) (some input) v = ⟨1, 0, some obj⟩) :
    recoverableSerializeCompact (some out) (some oldv) (some obj) =
      ⟨1, 0, (some input, some v)⟩ := by
  by_cases hr : v < 0 ∨ 3 < v
  · rw [C15_illegal_recid old input hr] at h
    simp at h
  · obtain ⟨v, rfl⟩ := Int.eq_ofNat_of_zero_le (show 0 ≤ v by omega)
    have hv : v < 4 := by omega
    have hp := C15_parse hl old hv
    by_cases hc : beNat (input.take 32) < n ∧ beNat (input.drop 32) < n
    · rw [hp.1 hc] at h
      have h := Option.some.inj (congrArg Out.val h)
      rw [← h, C15_serialize _ _ hv ho, ZMod.val_natCast, ZMod.val_natCast, Nat.mod_eq_of_lt hc.1,
        Nat.mod_eq_of_lt hc.2, beBytes_beNat' (by simp [hl]), beBytes_beNat' (by simp [hl]),
        List.take_append_drop]
    · rw [hp.2 hc] at h
      simp at h

/-- The bytes of the pair `(5, 7)` with the recovery id 3. -/
example : ∃ obj, recoverableSerializeCompact (some (zeros 64)) (some 0) (some obj) =
    ⟨1, 0, (some (beBytes 32 5 ++ beBytes 32 7), some 3)⟩ :=
  ⟨_, C15_parse_serialize (by decide +kernel) [] (by decide +kernel) 0
    ((C15_parse (by decide +kernel) [] (v := 3) (by decide)).1 (by decide +kernel))⟩

/-- Every recoverable signature survives serializing and parsing. -/
theorem C15_serialize_parse (r s : Fn) {v : ℕ} (hv : v < 4) (old : Bytes) :
    recoverableParseCompact (some old) (some (beBytes 32 r.val ++ beBytes 32 s.val)) v =
      ⟨1, 0, some (recObject r s v)⟩ := by
  have hr : (beBytes 32 r.val ++ beBytes 32 s.val).take 32 = beBytes 32 r.val :=
    List.take_left' (Hash.beBytes_length _ _)
  have hs : (beBytes 32 r.val ++ beBytes 32 s.val).drop 32 = beBytes 32 s.val :=
    List.drop_left' (Hash.beBytes_length _ _)
  have vr : beNat (beBytes 32 r.val) = r.val := by
    rw [beNat_beBytes, Nat.mod_eq_of_lt (fn_lt r)]
  have vs : beNat (beBytes 32 s.val) = s.val := by
    rw [beNat_beBytes, Nat.mod_eq_of_lt (fn_lt s)]
  rw [(C15_parse (by simp [Hash.beBytes_length]) old hv).1 (by
    rw [hr, hs, vr, vs]; exact ⟨ZMod.val_lt r, ZMod.val_lt s⟩), hr, hs, vr, vs,
    ZMod.natCast_zmod_val, ZMod.natCast_zmod_val]

example := C15_serialize_parse 5 (-7) (v := 1) (by decide) []

/-- Converting keeps `r` and `s`. -/
theorem C15_convert (r s : Fn) {v : ℕ} (hv : v < 4) (old : Bytes) :
    recoverableConvert (some old) (some (recObject r s v)) = ⟨1, 0, some (sigObject r s)⟩ := by
  simp only [recoverableConvert, recoverableLoad_obj r s hv]
  rfl

example := C15_convert 5 (-7) (v := 1) (by decide) []

/-- The boundary: `n-1` is accepted with recovery id 3, `n` is not, and 4 is illegal. -/
example : (let i := beBytes 32 (n - 1) ++ beBytes 32 0;
      i.length = 64 ∧ beNat (i.take 32) < n ∧ beNat (i.drop 32) < n) ∧
    (let j := beBytes 32 0 ++ beBytes 32 n;
      j.length = 64 ∧ ¬ (beNat (j.take 32) < n ∧ beNat (j.drop 32) < n)) ∧ (3 : Int) < 4 := by
  decide +kernel

end Secp
