import Verif.Spec.Illegal
import Verif.Proof.Extrakeys

/-! # Reporting illegal arguments: helper lemmas -/

namespace Secp
open Model Spec

theorem kept_refl (a : Option Bytes) : Kept a a := by
  cases a with
  | none => trivial
  | some a => exact fun i => Or.inl rfl

theorem getD_zeros (k i : ℕ) : (zeros k).getD i 0 = 0 := by
  rw [zeros, List.getD_eq_getElem?_getD, List.getElem?_replicate]; split_ifs <;> rfl

theorem kept_zeros (a : Bytes) (k : ℕ) : Kept (some a) (some (zeros k)) :=
  fun i => Or.inr (getD_zeros k i)

theorem kept_put (a : Bytes) (k : ℕ) : Kept (some a) (some (put a 0 (zeros k))) := by
  intro i
  simp only [put, List.take_zero, List.nil_append]
  by_cases h : i < (zeros k).length
  · right
    rw [List.getD_eq_getElem?_getD, List.getElem?_append_left h, ← List.getD_eq_getElem?_getD, getD_zeros]
  · left
    rw [List.getD_eq_getElem?_getD, List.getElem?_append_right (by omega), List.getElem?_drop,
      List.getD_eq_getElem?_getD]
    congr 2; omega

theorem kept_map (a : Option Bytes) (k : ℕ) : Kept a (a.map fun _ => zeros k) := by
  cases a with
  | none => trivial
  | some a => exact kept_zeros a k

theorem keptNum_refl {α : Type} [Zero α] (a : Option α) : KeptNum a a := by
  cases a with
  | none => trivial
  | some a => exact Or.inl rfl

theorem keptNum_zero {α : Type} [Zero α] (a : α) : KeptNum (some a) (some 0) := Or.inr rfl

theorem reports_bad {α : Type} {bad : Prop} {keep : α → Prop} {v : α} (hb : bad) (hk : keep v) :
    Reports bad keep ⟨0, 1, v⟩ := Or.inl ⟨hb, rfl, rfl, hk⟩

theorem reports_arg {α : Type} {bad : Prop} {keep : α → Prop} {v : α} (hb : bad) (hk : keep v) :
    Reports bad keep (.argFail v) := Or.inl ⟨hb, rfl, rfl, hk⟩

theorem reports_ok {α : Type} {bad : Prop} {keep : α → Prop} {v : α} {r : Int} (hb : ¬ bad) :
    Reports bad keep ⟨r, 0, v⟩ := Or.inr ⟨hb, rfl⟩

theorem reportsLoop_arg {α : Type} {bad : Prop} {keep : α → Prop} {v : α} (hb : bad) (hk : keep v) :
    ReportsLoop bad keep (some (.argFail v)) := Or.inl ⟨hb, _, rfl, rfl, rfl, hk⟩

theorem reportsLoop_bad {α : Type} {bad : Prop} {keep : α → Prop} {v : α} (hb : bad) (hk : keep v) :
    ReportsLoop bad keep (some ⟨0, 1, v⟩) := Or.inl ⟨hb, _, rfl, rfl, rfl, hk⟩

theorem reportsLoop_ok {α : Type} {bad : Prop} {keep : α → Prop} {v : α} {r : Int} (hb : ¬ bad) :
    ReportsLoop bad keep (some ⟨r, 0, v⟩) := Or.inr ⟨hb, fun o h => by
      rw [← Option.some.inj h]⟩

theorem reportsLoop_none {α : Type} {bad : Prop} {keep : α → Prop} (hb : ¬ bad) :
    ReportsLoop bad keep (none : Option (Out α)) := Or.inr ⟨hb, fun _ h => nomatch h⟩

theorem load_iff (b : Bytes) : (pubkeyLoad b).2 = true ↔ ¬ NoKey b := by
  simp [pubkeyLoad, NoKey]

theorem load_false (b : Bytes) : (pubkeyLoad b).2 = false ↔ NoKey b := by
  rw [← Bool.not_eq_true, load_iff, not_not]

theorem keypairLoad_iff (b : Bytes) : (keypairLoad b).2.2 = true ↔ ¬ NoKeypair b := by
  have h1 := load_iff (b.drop 32)
  have h2 : (keypairSeckeyLoad b).2 = true ↔ 0 < beNat (b.take 32) ∧ beNat (b.take 32) < n :=
    scSetB32Seckey_iff b
  have h3 : (keypairLoad b).2.2 = ((pubkeyLoad (b.drop 32)).2 && (keypairSeckeyLoad b).2) := by
    simp only [keypairLoad]
    cases (pubkeyLoad (b.drop 32)).2 && (keypairSeckeyLoad b).2 <;> rfl
  rw [h3, Bool.and_eq_true, h1, h2, NoKeypair]
  constructor
  · rintro ⟨a, b⟩ (c | c | c) <;> first | omega | exact a c
  · intro h
    refine ⟨fun c => h (Or.inr (Or.inr c)), ?_⟩
    by_contra hc
    exact h (by omega)

theorem keypairLoadPub_iff (b : Bytes) : (keypairLoadPub b).2 = true ↔ ¬ NoKey (b.drop 32) := by
  have h1 := load_iff (b.drop 32)
  simp only [keypairLoadPub]
  cases h3 : (pubkeyLoad (b.drop 32)).2 <;> simp only [h3] at h1 <;> simpa using h1

theorem memcmp4_iff (a b : Bytes) : memcmpVar a b 4 ≠ 0 ↔ WrongMagic b a := by
  have e : ∀ (k : ℕ) (a b : Bytes), memcmpVar a b k = 0 ↔ ∀ i < k, a.getD i 0 = b.getD i 0 := by
    intro k
    induction k with
    | zero => intro a b; simp [memcmpVar]
    | succ k ih =>
      intro a b
      have hd : ∀ (l : Bytes) i, l.tail.getD i 0 = l.getD (i + 1) 0 := by
        intro l i; cases l <;> simp
      have h0 : ∀ l : Bytes, l.headD 0 = l.getD 0 0 := by intro l; cases l <;> simp
      simp only [memcmpVar]
      split_ifs with h
      · constructor
        · intro h'; exact absurd h' h
        · intro h'
          have := h' 0 (by omega)
          rw [h0, h0, this] at h; simp at h
      · rw [ih]
        constructor
        · intro h' i hi
          cases i with
          | zero =>
            rw [← h0, ← h0]
            have : ((a.headD 0).toNat : ℤ) = (b.headD 0).toNat := by omega
            exact UInt8.toNat_inj.1 (by exact_mod_cast this)
          | succ i => rw [← hd, ← hd]; exact h' i (by omega)
        · intro h' i hi; rw [hd, hd]; exact h' (i + 1) (by omega)
  rw [Ne, e, WrongMagic]
  push Not
  rfl

end Secp
