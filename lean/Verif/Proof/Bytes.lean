import Mathlib.Tactic.Ring
import Mathlib.Tactic.Linarith
import Verif.Spec.Curve
import Verif.Proof.Hash

/-! # Encoding and decoding numbers -/

namespace Secp
open Spec Hash

theorem beNat_append (a b : Bytes) : beNat (a ++ b) = beNat a * 256 ^ b.length + beNat b := by
  have key : ∀ (b : Bytes) (c : ℕ),
      b.foldl (fun a x => a * 256 + x.toNat) c = c * 256 ^ b.length + beNat b := by
    intro b
    induction b with
    | nil => intro c; simp [beNat]
    | cons x l ih =>
      intro c
      have e : beNat (x :: l) = (0 * 256 + x.toNat) * 256 ^ l.length + beNat l := ih _
      rw [List.foldl_cons, ih, e, List.length_cons, pow_succ]
      ring
  unfold beNat
  rw [List.foldl_append, key]
  rfl

theorem beNat_singleton (x : UInt8) : beNat [x] = x.toNat := by simp [beNat]

theorem beNat_cons (x : UInt8) (l : Bytes) : beNat (x :: l) = x.toNat * 256 ^ l.length + beNat l := by
  rw [show x :: l = [x] ++ l from rfl, beNat_append, beNat_singleton]

theorem beNat_nil : beNat [] = 0 := rfl

theorem beNat_lt (b : Bytes) : beNat b < 256 ^ b.length := by
  induction b with
  | nil => simp [beNat]
  | cons x l ih =>
    rw [beNat_cons, List.length_cons, pow_succ]
    have := x.toNat_lt
    have h2 : x.toNat * 256 ^ l.length ≤ 255 * 256 ^ l.length := Nat.mul_le_mul_right _ (by omega)
    omega

theorem beNat_beBytes (k x : ℕ) : beNat (beBytes k x) = x % 256 ^ k := by
  induction k generalizing x with
  | zero => simp [beBytes, beNat, Nat.mod_one]
  | succ k ih =>
    rw [beBytes, beNat_append, ih, beNat_singleton, UInt8.toNat_ofNat', List.length_singleton,
      pow_one, show (2 : ℕ) ^ 8 = 256 from rfl, Nat.mod_mod, pow_succ', Nat.mod_mul, mul_comm,
      add_comm]

theorem beBytes_beNat (b : Bytes) : beBytes b.length (beNat b) = b := by
  induction hl : b.length generalizing b with
  | zero => rw [List.eq_nil_of_length_eq_zero hl]; rfl
  | succ k ih =>
    obtain ⟨l, x, rfl⟩ : ∃ l x, b = l ++ [x] :=
      ⟨_, _, (List.dropLast_append_getLast (by rintro rfl; simp at hl)).symm⟩
    have hk : l.length = k := by simpa using hl
    subst hk
    have ih := ih l rfl
    clear hl
    rw [beBytes, beNat_append, beNat_singleton,
      List.length_singleton, pow_one]
    have hx := x.toNat_lt
    rw [show (beNat l * 256 + x.toNat) / 256 = beNat l by omega,
      show (beNat l * 256 + x.toNat) % 256 = x.toNat by omega, ih, UInt8.ofNat_toNat]

theorem beBytes_beNat' {k : ℕ} {b : Bytes} (h : b.length = k) : beBytes k (beNat b) = b := by
  rw [← h]; exact beBytes_beNat b

theorem leBytes_length (k x : ℕ) : (leBytes k x).length = k := by
  rw [leBytes, List.length_reverse, beBytes_length]

theorem leNat_leBytes (k x : ℕ) : leNat (leBytes k x) = x % 256 ^ k := by
  rw [leNat, leBytes, List.reverse_reverse, beNat_beBytes]

theorem leBytes_leNat {k : ℕ} {b : Bytes} (h : b.length = k) : leBytes k (leNat b) = b := by
  rw [leNat, leBytes, beBytes_beNat' (by rw [List.length_reverse, h]), List.reverse_reverse]

theorem leNat_lt (b : Bytes) : leNat b < 256 ^ b.length := by
  have := beNat_lt b.reverse
  rwa [List.length_reverse] at this

theorem beBytes_inj {k x y : ℕ} (hx : x < 256 ^ k) (hy : y < 256 ^ k)
    (h : beBytes k x = beBytes k y) : x = y := by
  have := congrArg beNat h
  rwa [beNat_beBytes, beNat_beBytes, Nat.mod_eq_of_lt hx, Nat.mod_eq_of_lt hy] at this

theorem beNat_inj {a b : Bytes} (hl : a.length = b.length) (h : beNat a = beNat b) : a = b := by
  rw [← beBytes_beNat a, ← beBytes_beNat b, hl, h]

theorem beBytes_zero (k : ℕ) : beBytes k 0 = List.replicate k 0 := by
  induction k with
  | zero => rfl
  | succ k ih => rw [beBytes, Nat.zero_div, ih, List.replicate_succ']; rfl

theorem leBytes_zero (k : ℕ) : leBytes k 0 = List.replicate k 0 := by
  rw [leBytes, beBytes_zero, List.reverse_replicate]

theorem p_lt_256 : p < 256 ^ 32 := by decide +kernel
theorem n_lt_256 : n < 256 ^ 32 := by decide +kernel

theorem fp_lt (a : Fp) : a.val < 256 ^ 32 := lt_trans (ZMod.val_lt a) p_lt_256
theorem fn_lt (a : Fn) : a.val < 256 ^ 32 := lt_trans (ZMod.val_lt a) n_lt_256

end Secp
