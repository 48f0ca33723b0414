import Mathlib.NumberTheory.LucasPrimality
import Mathlib.Tactic.NormNum.Prime
import Verif.Spec.Params

/-!
# `p` and `n` are prime

Pratt certificates, checked by the kernel: `pratt` turns a witness and the list of prime factors of
`N - 1` into primality of `N` through Mathlib's `lucas_primality`.
-/

namespace Secp

/-- Modular exponentiation by squaring; `fuel` bounds the number of bits. -/
def powModAux (m : Nat) : Nat → Nat → Nat → Nat
  | 0, _, _ => 1 % m
  | fuel + 1, a, e =>
    bif Nat.beq e 0 then 1 % m
    else
      bif Nat.beq (e % 2) 1 then a * powModAux m fuel (a * a % m) (e / 2) % m
      else powModAux m fuel (a * a % m) (e / 2)

def powMod (a e m : Nat) : Nat := powModAux m 520 (a % m) e

theorem powModAux_eq (m : Nat) : ∀ fuel a e, e < 2 ^ fuel → powModAux m fuel a e = a ^ e % m
  | 0, a, e, h => by
    have : e = 0 := by simpa using h
    simp [powModAux, this]
  | fuel + 1, a, e, h => by
    have h2 : e / 2 < 2 ^ fuel := by rw [pow_succ] at h; omega
    have ih := powModAux_eq m fuel (a * a % m) (e / 2) h2
    have hsq : (a * a % m) ^ (e / 2) % m = a ^ (2 * (e / 2)) % m := by
      rw [← Nat.pow_mod, pow_mul, sq]
    unfold powModAux
    rcases Nat.eq_zero_or_pos e with he | he
    · subst he; simp
    · have hb : Nat.beq e 0 = false := by
        rw [Bool.eq_false_iff]; intro h; rw [Nat.beq_eq] at h; omega
      rw [hb, ih, hsq]
      rcases Nat.mod_two_eq_zero_or_one e with h0 | h1
      · have : Nat.beq (e % 2) 1 = false := by rw [h0]; rfl
        rw [this]; simp only [cond_false]
        congr 2; omega
      · have : Nat.beq (e % 2) 1 = true := by rw [h1]; rfl
        rw [this]; simp only [cond_false, cond_true]
        rw [Nat.mul_mod, Nat.mod_mod, ← Nat.mul_mod, ← pow_succ']
        congr 2; omega

theorem powMod_eq (a e m : Nat) (h : e < 2 ^ 520) : powMod a e m = a ^ e % m := by
  rw [powMod, powModAux_eq m 520 _ _ h, ← Nat.pow_mod]

/-- The arithmetic part of a Pratt certificate. -/
def prattCheck (N a : Nat) (qs : List Nat) : Bool :=
  Nat.ble 2 N && Nat.ble N (2 ^ 512) && Nat.beq (qs.foldr (· * ·) 1) (N - 1)
    && Nat.beq (powMod a (N - 1) N) 1
    && qs.all (fun q => !Nat.beq (powMod a ((N - 1) / q) N) 1)

theorem pratt (N a : Nat) (qs : List Nat) (hq : ∀ q ∈ qs, Nat.Prime q)
    (hc : prattCheck N a qs = true) : Nat.Prime N := by
  simp only [prattCheck, Bool.and_eq_true, Nat.ble_eq, Nat.beq_eq, List.all_eq_true,
    Bool.not_eq_true'] at hc
  obtain ⟨⟨⟨⟨h2, hle⟩, hprod⟩, h1⟩, hall⟩ := hc
  have hlt : N - 1 < 2 ^ 520 :=
    lt_of_le_of_lt (le_trans (Nat.sub_le _ _) hle)
      (Nat.pow_lt_pow_right (by norm_num) (by norm_num))
  have cast_one : ∀ e, e < 2 ^ 520 → (((a : ZMod N) ^ e = 1) ↔ powMod a e N = 1) := by
    intro e he
    rw [powMod_eq a e N he]
    have h1m : 1 % N = 1 := Nat.mod_eq_of_lt (by omega)
    constructor
    · intro h
      have h' : ((a ^ e : ℕ) : ZMod N) = ((1 : ℕ) : ZMod N) := by push_cast; exact h
      rw [ZMod.natCast_eq_natCast_iff'] at h'
      rw [h', h1m]
    · intro h
      have h' : ((a ^ e : ℕ) : ZMod N) = ((1 : ℕ) : ZMod N) := by
        rw [ZMod.natCast_eq_natCast_iff', h, h1m]
      push_cast at h'; exact h'
  refine lucas_primality N (a : ZMod N) ((cast_one _ hlt).2 h1) ?_
  intro q hqp hqd hcon
  have hmem : q ∈ qs := by
    rw [← hprod] at hqd
    have key : ∀ l : List Nat, (∀ r ∈ l, Nat.Prime r) → q ∣ l.foldr (· * ·) 1 → q ∈ l := by
      intro l
      induction l with
      | nil => intro _ hd; exact absurd hd (by simpa using hqp.one_lt.ne')
      | cons r l ih =>
        intro hl hd
        rw [List.foldr_cons] at hd
        rcases (Nat.Prime.dvd_mul hqp).1 hd with h | h
        · have := (Nat.prime_dvd_prime_iff_eq hqp (hl r (by simp))).1 h
          simp [this]
        · exact List.mem_cons_of_mem _ (ih (fun r hr => hl r (List.mem_cons_of_mem _ hr)) h)
    exact key qs hq hqd
  have := hall q hmem
  rw [(cast_one _ (lt_of_le_of_lt (Nat.div_le_self _ _) hlt)).1 hcon] at this
  simp at this

theorem prime_2 : Nat.Prime 2 := by norm_num

theorem prime_3 : Nat.Prime 3 := by norm_num

theorem prime_7 : Nat.Prime 7 := by norm_num

theorem prime_13441 : Nat.Prime 13441 := by norm_num

theorem prime_5 : Nat.Prime 5 := by norm_num

theorem prime_29 : Nat.Prime 29 := by norm_num

theorem prime_31 : Nat.Prime 31 := by norm_num

theorem prime_7723 : Nat.Prime 7723 := by norm_num

theorem prime_5323 : Nat.Prime 5323 := by norm_num

theorem prime_2621 : Nat.Prime 2621 := by norm_num

theorem prime_24809 : Nat.Prime 24809 := by norm_num

theorem prime_971 : Nat.Prime 971 := by norm_num

theorem prime_1373 : Nat.Prime 1373 := by norm_num

theorem prime_13331831 : Nat.Prime 13331831 := by
  refine pratt 13331831 13 [2, 5, 971, 1373] ?_ (by decide +kernel)
  simp only [List.forall_mem_cons, List.not_mem_nil, false_imp_iff, implies_true, and_true]
  exact ⟨prime_2, prime_5, prime_971, prime_1373⟩

theorem prime_173378833005251801 : Nat.Prime 173378833005251801 := by
  refine pratt 173378833005251801 6 [2, 2, 2, 5, 5, 2621, 24809, 13331831] ?_ (by decide +kernel)
  simp only [List.forall_mem_cons, List.not_mem_nil, false_imp_iff, implies_true, and_true]
  exact ⟨prime_2, prime_2, prime_2, prime_5, prime_5, prime_2621, prime_24809, prime_13331831⟩

theorem prime_22149492674086928081353 : Nat.Prime 22149492674086928081353 := by
  refine pratt 22149492674086928081353 5 [2, 2, 2, 3, 5323, 173378833005251801] ?_ (by decide +kernel)
  simp only [List.forall_mem_cons, List.not_mem_nil, false_imp_iff, implies_true, and_true]
  exact ⟨prime_2, prime_2, prime_2, prime_3, prime_5323, prime_173378833005251801⟩

theorem prime_132896956044521568488119 : Nat.Prime 132896956044521568488119 := by
  refine pratt 132896956044521568488119 6 [2, 3, 22149492674086928081353] ?_ (by decide +kernel)
  simp only [List.forall_mem_cons, List.not_mem_nil, false_imp_iff, implies_true, and_true]
  exact ⟨prime_2, prime_3, prime_22149492674086928081353⟩

theorem prime_11 : Nat.Prime 11 := by norm_num

theorem prime_1627 : Nat.Prime 1627 := by norm_num

theorem prime_2657 : Nat.Prime 2657 := by norm_num

theorem prime_4423 : Nat.Prime 4423 := by norm_num

theorem prime_41201 : Nat.Prime 41201 := by norm_num

theorem prime_96557 : Nat.Prime 96557 := by norm_num

theorem prime_20113 : Nat.Prime 20113 := by norm_num

theorem prime_1206781 : Nat.Prime 1206781 := by
  refine pratt 1206781 10 [2, 2, 3, 5, 20113] ?_ (by decide +kernel)
  simp only [List.forall_mem_cons, List.not_mem_nil, false_imp_iff, implies_true, and_true]
  exact ⟨prime_2, prime_2, prime_3, prime_5, prime_20113⟩

theorem prime_7240687 : Nat.Prime 7240687 := by
  refine pratt 7240687 3 [2, 3, 1206781] ?_ (by decide +kernel)
  simp only [List.forall_mem_cons, List.not_mem_nil, false_imp_iff, implies_true, and_true]
  exact ⟨prime_2, prime_3, prime_1206781⟩

theorem prime_53 : Nat.Prime 53 := by norm_num

theorem prime_107590001 : Nat.Prime 107590001 := by
  refine pratt 107590001 3 [2, 2, 2, 2, 5, 5, 5, 5, 7, 29, 53] ?_ (by decide +kernel)
  simp only [List.forall_mem_cons, List.not_mem_nil, false_imp_iff, implies_true, and_true]
  exact ⟨prime_2, prime_2, prime_2, prime_2, prime_5, prime_5, prime_5, prime_5, prime_7, prime_29, prime_53⟩

theorem prime_255515944373312847190720520512484175977 : Nat.Prime 255515944373312847190720520512484175977 := by
  refine pratt 255515944373312847190720520512484175977 3 [2, 2, 2, 7, 7, 11, 1627, 2657, 4423, 41201, 96557, 7240687, 107590001] ?_ (by decide +kernel)
  simp only [List.forall_mem_cons, List.not_mem_nil, false_imp_iff, implies_true, and_true]
  exact ⟨prime_2, prime_2, prime_2, prime_7, prime_7, prime_11, prime_1627, prime_2657, prime_4423, prime_41201, prime_96557, prime_7240687, prime_107590001⟩

theorem prime_205115282021455665897114700593932402728804164701536103180137503955397371 : Nat.Prime 205115282021455665897114700593932402728804164701536103180137503955397371 := by
  refine pratt 205115282021455665897114700593932402728804164701536103180137503955397371 10 [2, 3, 5, 29, 29, 31, 7723, 132896956044521568488119, 255515944373312847190720520512484175977] ?_ (by decide +kernel)
  simp only [List.forall_mem_cons, List.not_mem_nil, false_imp_iff, implies_true, and_true]
  exact ⟨prime_2, prime_3, prime_5, prime_29, prime_29, prime_31, prime_7723, prime_132896956044521568488119, prime_255515944373312847190720520512484175977⟩

theorem prime_115792089237316195423570985008687907853269984665640564039457584007908834671663 : Nat.Prime 115792089237316195423570985008687907853269984665640564039457584007908834671663 := by
  refine pratt 115792089237316195423570985008687907853269984665640564039457584007908834671663 3 [2, 3, 7, 13441, 205115282021455665897114700593932402728804164701536103180137503955397371] ?_ (by decide +kernel)
  simp only [List.forall_mem_cons, List.not_mem_nil, false_imp_iff, implies_true, and_true]
  exact ⟨prime_2, prime_3, prime_7, prime_13441, prime_205115282021455665897114700593932402728804164701536103180137503955397371⟩

theorem prime_149 : Nat.Prime 149 := by norm_num

theorem prime_631 : Nat.Prime 631 := by norm_num

theorem prime_16699 : Nat.Prime 16699 := by norm_num

theorem prime_85831 : Nat.Prime 85831 := by norm_num

theorem prime_97 : Nat.Prime 97 := by norm_num

theorem prime_2011 : Nat.Prime 2011 := by norm_num

theorem prime_4681609 : Nat.Prime 4681609 := by
  refine pratt 4681609 23 [2, 2, 2, 3, 97, 2011] ?_ (by decide +kernel)
  simp only [List.forall_mem_cons, List.not_mem_nil, false_imp_iff, implies_true, and_true]
  exact ⟨prime_2, prime_2, prime_2, prime_3, prime_97, prime_2011⟩

theorem prime_107361793816595537 : Nat.Prime 107361793816595537 := by
  refine pratt 107361793816595537 3 [2, 2, 2, 2, 16699, 85831, 4681609] ?_ (by decide +kernel)
  simp only [List.forall_mem_cons, List.not_mem_nil, false_imp_iff, implies_true, and_true]
  exact ⟨prime_2, prime_2, prime_2, prime_2, prime_16699, prime_85831, prime_4681609⟩

theorem prime_17 : Nat.Prime 17 := by norm_num

theorem prime_59 : Nat.Prime 59 := by norm_num

theorem prime_4051 : Nat.Prime 4051 := by norm_num

theorem prime_120233 : Nat.Prime 120233 := by norm_num

theorem prime_797 : Nat.Prime 797 := by norm_num

theorem prime_9349 : Nat.Prime 9349 := by norm_num

theorem prime_44706919 : Nat.Prime 44706919 := by
  refine pratt 44706919 6 [2, 3, 797, 9349] ?_ (by decide +kernel)
  simp only [List.forall_mem_cons, List.not_mem_nil, false_imp_iff, implies_true, and_true]
  exact ⟨prime_2, prime_3, prime_797, prime_9349⟩

theorem prime_174723607534414371449 : Nat.Prime 174723607534414371449 := by
  refine pratt 174723607534414371449 3 [2, 2, 2, 17, 59, 4051, 120233, 44706919] ?_ (by decide +kernel)
  simp only [List.forall_mem_cons, List.not_mem_nil, false_imp_iff, implies_true, and_true]
  exact ⟨prime_2, prime_2, prime_2, prime_17, prime_59, prime_4051, prime_120233, prime_44706919⟩

theorem prime_109 : Nat.Prime 109 := by norm_num

theorem prime_293 : Nat.Prime 293 := by norm_num

theorem prime_2731 : Nat.Prime 2731 := by norm_num

theorem prime_305873 : Nat.Prime 305873 := by
  refine pratt 305873 3 [2, 2, 2, 2, 7, 2731] ?_ (by decide +kernel)
  simp only [List.forall_mem_cons, List.not_mem_nil, false_imp_iff, implies_true, and_true]
  exact ⟨prime_2, prime_2, prime_2, prime_2, prime_7, prime_2731⟩

theorem prime_41 : Nat.Prime 41 := by norm_num

theorem prime_28181 : Nat.Prime 28181 := by norm_num

theorem prime_545358713 : Nat.Prime 545358713 := by
  refine pratt 545358713 5 [2, 2, 2, 41, 59, 28181] ?_ (by decide +kernel)
  simp only [List.forall_mem_cons, List.not_mem_nil, false_imp_iff, implies_true, and_true]
  exact ⟨prime_2, prime_2, prime_2, prime_41, prime_59, prime_28181⟩

theorem prime_461 : Nat.Prime 461 := by norm_num

theorem prime_1871 : Nat.Prime 1871 := by norm_num

theorem prime_1627771 : Nat.Prime 1627771 := by
  refine pratt 1627771 3 [2, 3, 5, 29, 1871] ?_ (by decide +kernel)
  simp only [List.forall_mem_cons, List.not_mem_nil, false_imp_iff, implies_true, and_true]
  exact ⟨prime_2, prime_3, prime_5, prime_29, prime_1871⟩

theorem prime_297159362677 : Nat.Prime 297159362677 := by
  refine pratt 297159362677 2 [2, 2, 3, 3, 11, 461, 1627771] ?_ (by decide +kernel)
  simp only [List.forall_mem_cons, List.not_mem_nil, false_imp_iff, implies_true, and_true]
  exact ⟨prime_2, prime_2, prime_3, prime_3, prime_11, prime_461, prime_1627771⟩

theorem prime_29047611873442575647497758179 : Nat.Prime 29047611873442575647497758179 := by
  refine pratt 29047611873442575647497758179 2 [2, 293, 305873, 545358713, 297159362677] ?_ (by decide +kernel)
  simp only [List.forall_mem_cons, List.not_mem_nil, false_imp_iff, implies_true, and_true]
  exact ⟨prime_2, prime_293, prime_305873, prime_545358713, prime_297159362677⟩

theorem prime_341948486974166000522343609283189 : Nat.Prime 341948486974166000522343609283189 := by
  refine pratt 341948486974166000522343609283189 2 [2, 2, 3, 3, 3, 109, 29047611873442575647497758179] ?_ (by decide +kernel)
  simp only [List.forall_mem_cons, List.not_mem_nil, false_imp_iff, implies_true, and_true]
  exact ⟨prime_2, prime_2, prime_3, prime_3, prime_3, prime_109, prime_29047611873442575647497758179⟩

theorem prime_115792089237316195423570985008687907852837564279074904382605163141518161494337 : Nat.Prime 115792089237316195423570985008687907852837564279074904382605163141518161494337 := by
  refine pratt 115792089237316195423570985008687907852837564279074904382605163141518161494337 7 [2, 2, 2, 2, 2, 2, 3, 149, 631, 107361793816595537, 174723607534414371449, 341948486974166000522343609283189] ?_ (by decide +kernel)
  simp only [List.forall_mem_cons, List.not_mem_nil, false_imp_iff, implies_true, and_true]
  exact ⟨prime_2, prime_2, prime_2, prime_2, prime_2, prime_2, prime_3, prime_149, prime_631, prime_107361793816595537, prime_174723607534414371449, prime_341948486974166000522343609283189⟩

theorem p_prime : Nat.Prime p := by unfold p; exact prime_115792089237316195423570985008687907853269984665640564039457584007908834671663
theorem n_prime : Nat.Prime n := by unfold n; exact prime_115792089237316195423570985008687907852837564279074904382605163141518161494337

instance : Fact (Nat.Prime p) := ⟨p_prime⟩
instance : Fact (Nat.Prime n) := ⟨n_prime⟩

end Secp
