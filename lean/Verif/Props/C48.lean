import Verif.Proof.EllswiftEnc

/-! # C48: ElligatorSwift decoding is total -/

namespace Secp
open Model Spec

/-- Every 64-byte string decodes to a valid public key: the point, other than infinity, whose x
coordinate is BIP-324's `XSwiftEC(u, t)` and whose y coordinate has the parity of `t`. -/
theorem C48_decode (old : Bytes) {ell : Bytes} (_hl : ell.length = 64) :
    ∃ P, EllDecodes ell P ∧ ellswiftDecode (some old) (some ell) = ⟨1, 0, some (keyObject P)⟩ :=
  decode_spec old ell

/-- The point is determined by the string, so that `C48_decode` leaves no choice. -/
theorem C48_unique {ell : Bytes} {P Q : Pt} (hP : EllDecodes ell P) (hQ : EllDecodes ell Q) : P = Q :=
  ellDecodes_unique hP hQ

/-- The specified map is well defined on every pair, including the exceptional ones: its value is an x
coordinate of the curve. -/
theorem C48_map_total (u t : Fp) : OnCurve (xswiftec u t) := (xswiftecFracVar_spec u t).2.2

/-- What the map computes, field operation by field operation, is the fraction `n / d` with `d ≠ 0` of
that value. -/
theorem C48_fraction (u t : Fp) :
    (xswiftecFracVar u t).2 ≠ 0 ∧
      (xswiftecFracVar u t).1 / (xswiftecFracVar u t).2 = xswiftec u t :=
  ⟨(xswiftecFracVar_spec u t).1, (xswiftecFracVar_spec u t).2.1⟩

/-- `t` and `-t` give the same x coordinate. -/
theorem C48_neg (u t : Fp) : xswiftec u (-t) = xswiftec u t := xswiftec_neg u t

/-- The string of 64 zero bytes, which takes both replacements `u = 0`, `t = 0`, and the string of 64
bytes 0xff, whose halves are above `p`. -/
example (old : Bytes) :
    (∃ P, EllDecodes (List.replicate 64 0) P ∧
      ellswiftDecode (some old) (some (List.replicate 64 0)) = ⟨1, 0, some (keyObject P)⟩) ∧
    (∃ P, EllDecodes (List.replicate 64 255) P ∧
      ellswiftDecode (some old) (some (List.replicate 64 255)) = ⟨1, 0, some (keyObject P)⟩) :=
  ⟨C48_decode old (by rfl), C48_decode old (by rfl)⟩

/-- BIP-324's first decoding vector: both halves zero decode to the x coordinate edd1fd3e…a4. -/
example : xswiftec 0 0 = 0xedd1fd3e327ce90cc7a3542614289aee9682003e9cf7dcc9cf2ca9743be5aa0c := by
  rw [← (xswiftecFracVar_spec 0 0).2.1, div_eq_iff (xswiftecFracVar_spec 0 0).1]
  decide +kernel

end Secp
