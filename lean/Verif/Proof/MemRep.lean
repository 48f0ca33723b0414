import Verif.Model.Limb.Api
import Verif.Props.C59
import Verif.Props.C66
import Verif.Props.C67
import Verif.Props.C46

/-!
# Limbs and bytes

What the code above the field needs to know about the functions that look at the limbs of an element.
-/

namespace Secp.Model
open Secp FeOps LimbRep
open Secp.Spec (beNat beBytes leNat leBytes)

/-- `Norm a v`: the limbs `a` are the normalized ones of `v`. -/
class MemRep (α : Type) [FeOps α] [FeMem α] [LimbRep α] where
  Norm : α → Fp → Prop
  inv : LimbInvOk α
  rep : ∀ {a : α} {v : Fp}, Norm a v → Rep a 1 v
  normalize : ∀ {a : α} {v : Fp}, Rep a 31 v → Norm (FeOps.normalize a) v
  isZero : ∀ {a : α} {v : Fp}, Norm a v → FeMem.isZero a = feIsZero v
  isOdd : ∀ {a : α} {v : Fp}, Norm a v → FeMem.isOdd a = feIsOdd v
  cmpVar : ∀ {a b : α} {v w : Fp}, Norm a v → Norm b w → FeMem.cmpVar a b = feCmpVar v w
  getB32 : ∀ {a : α} {v : Fp}, Norm a v → FeMem.getB32 a = feGetB32 v
  toMem : ∀ {a : α} {v : Fp}, Norm a v → FeMem.toMem a = leBytes 32 v.val
  fromMem : ∀ {b : List UInt8}, b.length ≤ 32 → Rep (FeMem.fromMem b : α) 1 (leNat b : Fp)
  fromMemNorm : ∀ {b : List UInt8}, b.length ≤ 32 → leNat b < p → Norm (FeMem.fromMem b : α) (leNat b : Fp)
  fromMemZero : ∀ {b : List UInt8}, b.length ≤ 32 → FeMem.isZero (FeMem.fromMem b : α) = (leNat b == 0)
  setB32Mod : ∀ {b : List UInt8}, 32 ≤ b.length → Rep (FeMem.setB32Mod b : α) 1 (feSetB32Mod b)
  setB32Limit : ∀ {b : List UInt8}, 32 ≤ b.length →
    (FeMem.setB32Limit b : α × Bool).2 = (feSetB32Limit b).2 ∧ Rep (FeMem.setB32Limit b : α × Bool).1 1 (feSetB32Limit b).1
  setB32LimitNorm : ∀ {b : List UInt8}, 32 ≤ b.length → (feSetB32Limit b).2 = true →
    Norm (FeMem.setB32Limit b : α × Bool).1 (feSetB32Limit b).1
  feConst : ∀ {k : ℕ}, k < p → Norm (FeOps.feConst k : α) (k : Fp)
  isSquareVar : ∀ {a : α} {v : Fp}, Rep a 31 v → FeMem.isSquareVar a = feIsSquareVar v

/-! ### Words of memory -/

theorem beNat_cons_aux (l : List UInt8) (a : ℕ) :
    l.foldl (fun a x => a * 256 + x.toNat) a = a * 256 ^ l.length + beNat l := by
  unfold beNat
  induction l generalizing a with
  | nil => simp
  | cons x l ih =>
    rw [List.foldl_cons, ih, List.foldl_cons, ih (0 * 256 + x.toNat), List.length_cons]
    ring

theorem leNat_append (a b : List UInt8) : leNat (a ++ b) = leNat a + 256 ^ a.length * leNat b := by
  unfold leNat
  rw [List.reverse_append]
  unfold beNat
  rw [List.foldl_append, beNat_cons_aux, List.length_reverse]
  unfold beNat
  ring

theorem leNat_take_drop (k : ℕ) (b : List UInt8) : leNat b = leNat (b.take k) + 256 ^ k * leNat (b.drop k) := by
  conv_lhs => rw [← List.take_append_drop k b]
  rw [leNat_append, List.length_take]
  rcases Nat.le_total k b.length with h | h
  · rw [Nat.min_eq_left h]
  · rw [List.drop_eq_nil_of_le h]
    simp [leNat, beNat]

theorem leNat_take_lt (k : ℕ) (b : List UInt8) : leNat (b.take k) < 256 ^ k :=
  lt_of_lt_of_le (leNat_lt _) (Nat.pow_le_pow_right (by norm_num) (by rw [List.length_take]; exact Nat.min_le_left _ _))

theorem leNat_words (k : ℕ) (m : ℕ) (b : List UInt8) :
    leNat (b.drop (k * m)) = leWord k b m + 256 ^ k * leNat (b.drop (k * (m + 1))) := by
  rw [leNat_take_drop k, List.drop_drop, leWord, show k * m + k = k * (m + 1) by ring]

theorem leNat_words4 {b : List UInt8} (h : b.length ≤ 32) :
    leWord 8 b 0 + leWord 8 b 1 * 2 ^ 64 + leWord 8 b 2 * 2 ^ 128 + leWord 8 b 3 * 2 ^ 192 = leNat b := by
  have e0 := leNat_words 8 0 b
  have e1 := leNat_words 8 1 b
  have e2 := leNat_words 8 2 b
  have e3 := leNat_words 8 3 b
  have e4 : leNat (b.drop (8 * (3 + 1))) = 0 := by rw [List.drop_eq_nil_of_le (by omega)]; rfl
  rw [e4] at e3
  rw [show b = b.drop (8 * 0) from rfl, e0, e1, e2, e3]
  norm_num
  ring

theorem leNat_words8 {b : List UInt8} (h : b.length ≤ 32) :
    leWord 4 b 0 + leWord 4 b 1 * 2 ^ 32 + leWord 4 b 2 * 2 ^ 64 + leWord 4 b 3 * 2 ^ 96 +
      leWord 4 b 4 * 2 ^ 128 + leWord 4 b 5 * 2 ^ 160 + leWord 4 b 6 * 2 ^ 192 + leWord 4 b 7 * 2 ^ 224 =
      leNat b := by
  have e0 := leNat_words 4 0 b
  have e1 := leNat_words 4 1 b
  have e2 := leNat_words 4 2 b
  have e3 := leNat_words 4 3 b
  have e4 := leNat_words 4 4 b
  have e5 := leNat_words 4 5 b
  have e6 := leNat_words 4 6 b
  have e7 := leNat_words 4 7 b
  have e8 : leNat (b.drop (4 * (7 + 1))) = 0 := by rw [List.drop_eq_nil_of_le (by omega)]; rfl
  rw [e8] at e7
  rw [show b = b.drop (4 * 0) from rfl, e0, e1, e2, e3, e4, e5, e6, e7]
  norm_num
  ring

theorem leWord_lt (k : ℕ) (b : List UInt8) (i : ℕ) : leWord k b i < 256 ^ k := leNat_take_lt k _

theorem leBytes_unique {k : ℕ} {b : List UInt8} (h : b.length = k) {x : ℕ} (hx : leNat b = x) : b = leBytes k x := by
  rw [← hx, leBytes_leNat h]

theorem byteOf_take {b : List UInt8} {i : ℕ} (hi : i < 32) : byteOf b i = byteOf (b.take 32) i := by
  unfold byteOf
  rw [List.getD_eq_getElem?_getD, List.getD_eq_getElem?_getD, List.getElem?_take_of_lt hi]

/-! ### 52-bit limbs -/

namespace Fe5

theorem setB32Mod_take (b : List UInt8) : Fe5.setB32Mod (byteOf b) = Fe5.setB32Mod (byteOf (b.take 32)) := by
  have h : ∀ i, i < 32 → byteOf b i = byteOf (b.take 32) i := fun i hi => byteOf_take hi
  generalize byteOf b = f at *
  generalize byteOf (b.take 32) = g at *
  unfold Fe5.setB32Mod
  simp only [h _ (show 0 < 32 by omega), h _ (show 1 < 32 by omega), h _ (show 2 < 32 by omega),
    h _ (show 3 < 32 by omega), h _ (show 4 < 32 by omega), h _ (show 5 < 32 by omega),
    h _ (show 6 < 32 by omega), h _ (show 7 < 32 by omega), h _ (show 8 < 32 by omega),
    h _ (show 9 < 32 by omega), h _ (show 10 < 32 by omega), h _ (show 11 < 32 by omega),
    h _ (show 12 < 32 by omega), h _ (show 13 < 32 by omega), h _ (show 14 < 32 by omega),
    h _ (show 15 < 32 by omega), h _ (show 16 < 32 by omega), h _ (show 17 < 32 by omega),
    h _ (show 18 < 32 by omega), h _ (show 19 < 32 by omega), h _ (show 20 < 32 by omega),
    h _ (show 21 < 32 by omega), h _ (show 22 < 32 by omega), h _ (show 23 < 32 by omega),
    h _ (show 24 < 32 by omega), h _ (show 25 < 32 by omega), h _ (show 26 < 32 by omega),
    h _ (show 27 < 32 by omega), h _ (show 28 < 32 by omega), h _ (show 29 < 32 by omega),
    h _ (show 30 < 32 by omega), h _ (show 31 < 32 by omega)]

variable [Fe5.LimbInv]

theorem fromMem_spec {b : List UInt8} (h : b.length ≤ 32) :
    (FeMem.fromMem b : Fe5).nat = leNat b ∧ (FeMem.fromMem b : Fe5).n0 < 2 ^ 52 ∧
      (FeMem.fromMem b : Fe5).n1 < 2 ^ 52 ∧ (FeMem.fromMem b : Fe5).n2 < 2 ^ 52 ∧
      (FeMem.fromMem b : Fe5).n3 < 2 ^ 52 ∧ (FeMem.fromMem b : Fe5).n4 < 2 ^ 48 := by
  have e := leNat_words4 h
  obtain ⟨g, g'⟩ := fromStorage_spec (a := ⟨leWord 8 b 0, leWord 8 b 1, leWord 8 b 2, leWord 8 b 3⟩)
    (leWord_lt 8 b 0) (leWord_lt 8 b 1) (leWord_lt 8 b 2) (leWord_lt 8 b 3)
  exact ⟨g.trans e, g'⟩

theorem toMem_spec {a : Fe5} (ha : a.Norm) : FeMem.toMem a = leBytes 32 a.nat := by
  obtain ⟨h, h0, h1, h2, h3⟩ := toStorage_spec ha
  apply leBytes_unique
  · change (leBytes 8 _ ++ leBytes 8 _ ++ leBytes 8 _ ++ leBytes 8 _).length = _
    simp only [List.length_append, leBytes_length]
  · change leNat (leBytes 8 _ ++ leBytes 8 _ ++ leBytes 8 _ ++ leBytes 8 _) = _
    simp only [leNat_append, List.length_append, leBytes_length, leNat_leBytes]
    rw [show (256 : ℕ) ^ 8 = 2 ^ 64 by norm_num, Nat.mod_eq_of_lt h0, Nat.mod_eq_of_lt h1,
      Nat.mod_eq_of_lt h2, Nat.mod_eq_of_lt h3, ← h]
    unfold FeStorage.nat
    norm_num
    ring

theorem memRep (hi : LimbInvOk Fe5) : Nonempty (MemRep Fe5) := by
  refine ⟨{
    Norm := fun a v => a.Norm ∧ (a.nat : Fp) = v, inv := hi,
    rep := ?rep, normalize := ?normalize, isZero := ?isZero,
    isOdd := ?isOdd, cmpVar := ?cmpVar, getB32 := ?getB32, toMem := ?toMem,
    fromMem := ?fromMem, fromMemNorm := ?fromMemNorm, fromMemZero := ?fromMemZero, setB32Mod := ?setB32Mod,
    setB32Limit := ?setB32Limit, setB32LimitNorm := ?setB32LimitNorm, feConst := ?feConst, isSquareVar := ?isSquareVar }⟩
  case rep => exact fun h => ⟨h.1.mag, h.2⟩
  case normalize =>
    intro a v h
    obtain ⟨h1, h2, -⟩ := C45_normalize (Fe5.Rep.mono h (by omega) : a.Rep 32 v)
    exact ⟨h1, by change ((a.normalize.nat : ℕ) : Fp) = v; rw [h2]; exact ZMod.natCast_zmod_val v⟩
  case isZero =>
    intro a v h
    rw [show FeMem.isZero a = a.isZero from rfl, (C45_is_zero_odd_cmp h.1 h.1 h.2 h.2).1, feIsZero]
    rw [beq_eq_decide]
    exact decide_eq_decide.2 (ZMod.val_eq_zero v).symm
  case isOdd =>
    intro a v h
    rw [show FeMem.isOdd a = a.isOdd from rfl, (C45_is_zero_odd_cmp h.1 h.1 h.2 h.2).2.1, feIsOdd]
    rfl
  case cmpVar =>
    intro a b v w h g
    rw [show FeMem.cmpVar a b = Fe5.cmpVar a b from rfl, (C45_is_zero_odd_cmp h.1 g.1 h.2 g.2).2.2, feCmpVar]
  case getB32 => exact fun h => (C45_get_b32 h.1 h.2).1
  case toMem =>
    intro a v h
    rw [toMem_spec h.1, ← h.2, ZMod.val_natCast, Nat.mod_eq_of_lt h.1.lt]
  case fromMem =>
    intro b h
    obtain ⟨e, h0, h1, h2, h3, h4⟩ := fromMem_spec h
    exact ⟨⟨by omega, by omega, by omega, by omega, by omega⟩, by rw [e]⟩
  case fromMemNorm =>
    intro b h hp
    obtain ⟨e, h0, h1, h2, h3, h4⟩ := fromMem_spec h
    exact ⟨⟨h0, h1, h2, h3, by rw [e]; exact hp⟩, by rw [e]⟩
  case fromMemZero =>
    intro b h
    obtain ⟨e, -⟩ := fromMem_spec h
    rw [show FeMem.isZero (FeMem.fromMem b : Fe5) = (FeMem.fromMem b : Fe5).isZero from rfl, isZero_spec, e]
    rfl
  case setB32Mod =>
    intro b h
    have hl : (b.take 32).length = 32 := by rw [List.length_take]; omega
    have := C45_set_b32_mod hl
    rw [show (FeMem.setB32Mod b : Fe5) = Fe5.setB32Mod (byteOf b) from rfl, setB32Mod_take]
    exact this
  case setB32Limit =>
    intro b h
    have hl : (b.take 32).length = 32 := by rw [List.length_take]; omega
    rw [show (FeMem.setB32Limit b : Fe5 × Bool) =
      (Fe5.setB32Mod (byteOf b), (Fe5.setB32Mod (byteOf b)).setB32LimitRet) from rfl, setB32Mod_take]
    exact ⟨(C45_set_b32_limit hl).1, C45_set_b32_mod hl⟩
  case setB32LimitNorm =>
    intro b h hp
    have hl : (b.take 32).length = 32 := by rw [List.length_take]; omega
    rw [show (FeMem.setB32Limit b : Fe5 × Bool) =
      (Fe5.setB32Mod (byteOf b), (Fe5.setB32Mod (byteOf b)).setB32LimitRet) from rfl, setB32Mod_take]
    obtain ⟨n, e⟩ := (C45_set_b32_limit hl).2 (of_decide_eq_true hp)
    exact ⟨n, by change (((Fe5.setB32Mod (byteAt (b.take 32))).nat : ℕ) : Fp) = _; rw [e]; rfl⟩
  case feConst =>
    intro k hk
    obtain ⟨h, h0, h1, h2, h3, h4⟩ := Fe5.feConst_spec (lt_trans hk p_lt_256)
    change (Fe5.feConst k).Norm ∧ (((Fe5.feConst k).nat : ℕ) : Fp) = _
    exact ⟨⟨h0, h1, h2, h3, by rw [h]; exact hk⟩, by rw [h]⟩
  case isSquareVar =>
    intro a v h
    rw [show FeMem.isSquareVar a = (Fe5.isSquareVar? a).getD false from rfl,
      C59_is_square_value (Fe5.Rep.mono h (by omega) : a.Rep 32 v)]
    rfl

end Fe5

/-! ### 26-bit limbs -/

namespace Fe10

theorem setB32Mod_take (b : List UInt8) : Fe10.setB32Mod (byteOf b) = Fe10.setB32Mod (byteOf (b.take 32)) := by
  have h : ∀ i, i < 32 → byteOf b i = byteOf (b.take 32) i := fun i hi => byteOf_take hi
  generalize byteOf b = f at *
  generalize byteOf (b.take 32) = g at *
  unfold Fe10.setB32Mod
  simp only [h _ (show 0 < 32 by omega), h _ (show 1 < 32 by omega), h _ (show 2 < 32 by omega),
    h _ (show 3 < 32 by omega), h _ (show 4 < 32 by omega), h _ (show 5 < 32 by omega),
    h _ (show 6 < 32 by omega), h _ (show 7 < 32 by omega), h _ (show 8 < 32 by omega),
    h _ (show 9 < 32 by omega), h _ (show 10 < 32 by omega), h _ (show 11 < 32 by omega),
    h _ (show 12 < 32 by omega), h _ (show 13 < 32 by omega), h _ (show 14 < 32 by omega),
    h _ (show 15 < 32 by omega), h _ (show 16 < 32 by omega), h _ (show 17 < 32 by omega),
    h _ (show 18 < 32 by omega), h _ (show 19 < 32 by omega), h _ (show 20 < 32 by omega),
    h _ (show 21 < 32 by omega), h _ (show 22 < 32 by omega), h _ (show 23 < 32 by omega),
    h _ (show 24 < 32 by omega), h _ (show 25 < 32 by omega), h _ (show 26 < 32 by omega),
    h _ (show 27 < 32 by omega), h _ (show 28 < 32 by omega), h _ (show 29 < 32 by omega),
    h _ (show 30 < 32 by omega), h _ (show 31 < 32 by omega)]

variable [Fe10.LimbInv]

theorem fromMem_spec {b : List UInt8} (h : b.length ≤ 32) :
    (FeMem.fromMem b : Fe10).nat = leNat b ∧ (FeMem.fromMem b : Fe10).Low ∧
      (FeMem.fromMem b : Fe10).n9 < 2 ^ 22 := by
  have e := leNat_words8 h
  obtain ⟨g, g'⟩ := fromStorage_spec (a := ⟨leWord 4 b 0, leWord 4 b 1, leWord 4 b 2, leWord 4 b 3,
    leWord 4 b 4, leWord 4 b 5, leWord 4 b 6, leWord 4 b 7⟩)
    ⟨leWord_lt 4 b 0, leWord_lt 4 b 1, leWord_lt 4 b 2, leWord_lt 4 b 3, leWord_lt 4 b 4, leWord_lt 4 b 5,
      leWord_lt 4 b 6, leWord_lt 4 b 7⟩
  exact ⟨g.trans e, g'⟩

theorem toMem_spec {a : Fe10} (ha : a.Norm) : FeMem.toMem a = leBytes 32 a.nat := by
  obtain ⟨h, h0, h1, h2, h3, h4, h5, h6, h7⟩ := toStorage_spec ha
  apply leBytes_unique
  · change (leBytes 4 _ ++ leBytes 4 _ ++ leBytes 4 _ ++ leBytes 4 _ ++ leBytes 4 _ ++ leBytes 4 _ ++
      leBytes 4 _ ++ leBytes 4 _).length = _
    simp only [List.length_append, leBytes_length]
  · change leNat (leBytes 4 _ ++ leBytes 4 _ ++ leBytes 4 _ ++ leBytes 4 _ ++ leBytes 4 _ ++ leBytes 4 _ ++
      leBytes 4 _ ++ leBytes 4 _) = _
    simp only [leNat_append, List.length_append, leBytes_length, leNat_leBytes]
    rw [show (256 : ℕ) ^ 4 = 2 ^ 32 by norm_num, Nat.mod_eq_of_lt h0, Nat.mod_eq_of_lt h1,
      Nat.mod_eq_of_lt h2, Nat.mod_eq_of_lt h3,
      Nat.mod_eq_of_lt h4, Nat.mod_eq_of_lt h5, Nat.mod_eq_of_lt h6, Nat.mod_eq_of_lt h7, ← h]
    unfold FeStorage8.nat
    norm_num
    ring

theorem Low.mag1 {a : Fe10} (h : a.Low) (h9 : a.n9 < 2 ^ 22) : a.Mag 1 := by
  obtain ⟨h0, h1, h2, h3, h4, h5, h6, h7, h8⟩ := h
  exact ⟨by omega, by omega, by omega, by omega, by omega, by omega, by omega, by omega, by omega, by omega⟩

theorem Low.norm {a : Fe10} (h : a.Low) (hp : a.nat < p) : a.Norm := by
  obtain ⟨h0, h1, h2, h3, h4, h5, h6, h7, h8⟩ := h
  exact ⟨h0, h1, h2, h3, h4, h5, h6, h7, h8, hp⟩

theorem memRep (hi : LimbInvOk Fe10) : Nonempty (MemRep Fe10) := by
  refine ⟨{
    Norm := fun a v => a.Norm ∧ (a.nat : Fp) = v, inv := hi,
    rep := ?rep, normalize := ?normalize, isZero := ?isZero,
    isOdd := ?isOdd, cmpVar := ?cmpVar, getB32 := ?getB32, toMem := ?toMem,
    fromMem := ?fromMem, fromMemNorm := ?fromMemNorm, fromMemZero := ?fromMemZero, setB32Mod := ?setB32Mod,
    setB32Limit := ?setB32Limit, setB32LimitNorm := ?setB32LimitNorm, feConst := ?feConst, isSquareVar := ?isSquareVar }⟩
  case rep => exact fun h => ⟨h.1.mag, h.2⟩
  case normalize =>
    intro a v h
    have h' : a.Rep 31 v := h
    obtain ⟨h1, h2, -⟩ := C64_normalize (.inl h'.mag) h'.val
    exact ⟨h1, by change ((a.normalize.nat : ℕ) : Fp) = v; rw [h2]; exact ZMod.natCast_zmod_val v⟩
  case isZero =>
    intro a v h
    rw [show FeMem.isZero a = a.isZero from rfl, (C64_is_zero_odd_cmp h.1 h.1 h.2 h.2).1, feIsZero]
    rw [beq_eq_decide]
    exact decide_eq_decide.2 (ZMod.val_eq_zero v).symm
  case isOdd =>
    intro a v h
    rw [show FeMem.isOdd a = a.isOdd from rfl, (C64_is_zero_odd_cmp h.1 h.1 h.2 h.2).2.1, feIsOdd]
    rfl
  case cmpVar =>
    intro a b v w h g
    rw [show FeMem.cmpVar a b = Fe10.cmpVar a b from rfl, (C64_is_zero_odd_cmp h.1 g.1 h.2 g.2).2.2, feCmpVar]
  case getB32 => exact fun h => (C64_get_b32 h.1 h.2).1
  case toMem =>
    intro a v h
    rw [toMem_spec h.1, ← h.2, ZMod.val_natCast, Nat.mod_eq_of_lt h.1.lt]
  case fromMem =>
    intro b h
    obtain ⟨e, h0, h9⟩ := fromMem_spec h
    exact ⟨h0.mag1 h9, by rw [e]⟩
  case fromMemNorm =>
    intro b h hp
    obtain ⟨e, h0, h9⟩ := fromMem_spec h
    exact ⟨h0.norm (by rw [e]; exact hp), by rw [e]⟩
  case fromMemZero =>
    intro b h
    obtain ⟨e, -⟩ := fromMem_spec h
    rw [show FeMem.isZero (FeMem.fromMem b : Fe10) = (FeMem.fromMem b : Fe10).isZero from rfl, isZero_spec, e]
    rfl
  case setB32Mod =>
    intro b h
    have hl : (b.take 32).length = 32 := by rw [List.length_take]; omega
    have := C64_set_b32_mod hl
    rw [show (FeMem.setB32Mod b : Fe10) = Fe10.setB32Mod (byteOf b) from rfl, setB32Mod_take]
    exact this
  case setB32Limit =>
    intro b h
    have hl : (b.take 32).length = 32 := by rw [List.length_take]; omega
    rw [show (FeMem.setB32Limit b : Fe10 × Bool) =
      (Fe10.setB32Mod (byteOf b), (Fe10.setB32Mod (byteOf b)).setB32LimitRet) from rfl, setB32Mod_take]
    exact ⟨(C64_set_b32_limit hl).1, C64_set_b32_mod hl⟩
  case setB32LimitNorm =>
    intro b h hp
    have hl : (b.take 32).length = 32 := by rw [List.length_take]; omega
    rw [show (FeMem.setB32Limit b : Fe10 × Bool) =
      (Fe10.setB32Mod (byteOf b), (Fe10.setB32Mod (byteOf b)).setB32LimitRet) from rfl, setB32Mod_take]
    obtain ⟨n, e⟩ := (C64_set_b32_limit hl).2 (of_decide_eq_true hp)
    exact ⟨n, by change (((Fe10.setB32Mod (byteAt (b.take 32))).nat : ℕ) : Fp) = _; rw [e]; rfl⟩
  case feConst =>
    intro k hk
    obtain ⟨h, h0, h9⟩ := Fe10.feConst_spec (lt_trans hk p_lt_256)
    change (Fe10.feConst k).Norm ∧ (((Fe10.feConst k).nat : ℕ) : Fp) = _
    exact ⟨h0.norm (by rw [h]; exact hk), by rw [h]⟩
  case isSquareVar =>
    intro a v h
    have h' : a.Rep 31 v := h
    rw [show FeMem.isSquareVar a = (Fe10.isSquareVar? a).getD false from rfl,
      C66_is_square_value (.inl h'.mag) h'.val]
    rfl

end Fe10

end Secp.Model
