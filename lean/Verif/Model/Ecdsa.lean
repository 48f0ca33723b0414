import Verif.Model.ApiKey

/-!
# Model of `/repo/src/ecdsa_impl.h`

The pair of a read position and `sigend` is the list of the bytes between them.  A read at
`sigend` or behind it is undefined behaviour; it is the outcome `ub`.
-/

namespace Secp.Model

open Spec (beNat beBytes leNat leBytes)
open FeOps

/-- `secp256k1_ecdsa_const_order_as_fe`, ecdsa_impl.h:22-25 -/
def ecdsaOrderAsFe : Fp :=
  ((0xFFFFFFFFFFFFFFFFFFFFFFFFFFFFFFFEBAAEDCE6AF48A03BBFD25E8CD0364141 : Nat) : Fp)

/-- `secp256k1_ecdsa_const_p_minus_order`, ecdsa_impl.h:32-34 -/
def ecdsaPMinusOrder : Fp := ((0x14551231950B75FC4402DA1722FC9BAEE : Nat) : Fp)

/-- The outcome of a parsing step: undefined behaviour, return value 0, or return value 1. -/
inductive Der (α : Type) where
  | ub
  | fail
  | ok (a : α)
  deriving DecidableEq

/-- The loop of `secp256k1_der_read_len`, ecdsa_impl.h:72-76.  `size_t` has 64 bits. -/
def derLenLoop : Nat → Nat → List UInt8 → Der (Nat × List UInt8)
  | 0, len, sig => .ok (len, sig)
  | _ + 1, _, [] => .ub
  | lenleft + 1, len, b :: sig => derLenLoop lenleft (((len <<< 8) % 2 ^ 64) ||| b.toNat) sig

/-- The long form in `secp256k1_der_read_len`, ecdsa_impl.h:58-87. -/
def derReadLong (lenleft : Nat) (sig : List UInt8) : Der (Nat × List UInt8) :=
  if lenleft > sig.length then .fail
  else
    match sig with
    | [] => .ub
    | c :: sig' =>
      if c = 0 then .fail
      else if lenleft > 8 then .fail
      else
        match derLenLoop lenleft 0 (c :: sig') with
        | .ub => .ub
        | .fail => .fail
        | .ok r =>
          if r.1 > r.2.length then .fail
          else if r.1 < 128 then .fail
          else .ok r

/-- `secp256k1_der_read_len`, ecdsa_impl.h:36-88: the length and the new position. -/
def derReadLen (sig : List UInt8) : Der (Nat × List UInt8) :=
  match sig with
  | [] => .fail
  | b1 :: sig =>
    if b1 = 0xFF then .fail
    else if b1 &&& 0x80 = 0 then .ok (b1.toNat, sig)
    else if b1 = 0x80 then .fail
    else derReadLong (b1 &&& 0x7F).toNat sig

/-- ecdsa_impl.h:115-136: the value of the contents octets `rlen` bytes from `sig` on. -/
def derIntegerValue (rlen : Nat) (sig : List UInt8) : Fn :=
  let overflow := sig.headD 0 &&& 0x80 == 0x80
  let skip := rlen > 0 ∧ sig.headD 0 = 0
  let rlen' := if skip then rlen - 1 else rlen
  let sig' := if skip then sig.drop 1 else sig
  let overflow := if rlen' > 32 then true else overflow
  let set := scSetB32 (zeros (32 - rlen') ++ sig'.take rlen')
  let r : Fn := if !overflow then set.1 else 0
  let overflow := if !overflow then set.2 else overflow
  if overflow then 0 else r

/-- `secp256k1_der_parse_integer`, ecdsa_impl.h:90-139: the scalar and the new position. -/
def derParseInteger (sig : List UInt8) : Der (Fn × List UInt8) :=
  match sig with
  | [] => .fail
  | t :: sig =>
    if t ≠ 0x02 then .fail
    else
      match derReadLen sig with
      | .ub => .ub
      | .fail => .fail
      | .ok (rlen, sig) =>
        if rlen = 0 ∨ rlen > sig.length then .fail
        else
          match sig with
          | [] => .ub
          | s0 :: tl =>
            if (s0 = 0x00 ∨ s0 = 0xFF) ∧ rlen > 1 ∧ tl = [] then .ub
            else if s0 = 0x00 ∧ rlen > 1 ∧ tl.headD 0 &&& 0x80 = 0x00 then .fail
            else if s0 = 0xFF ∧ rlen > 1 ∧ tl.headD 0 &&& 0x80 = 0x80 then .fail
            else .ok (derIntegerValue rlen (s0 :: tl), (s0 :: tl).drop rlen)

/-- `secp256k1_ecdsa_sig_parse`, ecdsa_impl.h:141-169 -/
def ecdsaSigParse (sig : List UInt8) : Der (Fn × Fn) :=
  match sig with
  | [] => .fail
  | t :: sig =>
    if t ≠ 0x30 then .fail
    else
      match derReadLen sig with
      | .ub => .ub
      | .fail => .fail
      | .ok (rlen, sig) =>
        if rlen ≠ sig.length then .fail
        else
          match derParseInteger sig with
          | .ub => .ub
          | .fail => .fail
          | .ok (rr, sig) =>
            match derParseInteger sig with
            | .ub => .ub
            | .fail => .fail
            | .ok (rs, sig) => if sig ≠ [] then .fail else .ok (rr, rs)

/-- The loops that drop leading zero bytes in `secp256k1_ecdsa_sig_serialize`,
ecdsa_impl.h:177-178; the pair of pointer and length is the list. -/
def derTrim : List UInt8 → List UInt8
  | a :: b :: t => if a = 0 ∧ b < 0x80 then derTrim (b :: t) else a :: b :: t
  | l => l

/-- `secp256k1_ecdsa_sig_serialize`, ecdsa_impl.h:171-193: the buffer, `*size` and the return
value. -/
def ecdsaSigSerialize (sig : List UInt8) (size : Nat) (ar as : Fn) : List UInt8 × Nat × Bool :=
  let rp := derTrim (0 :: scGetB32 ar)
  let sp := derTrim (0 :: scGetB32 as)
  let lenR := rp.length
  let lenS := sp.length
  if size < 6 + lenS + lenR then (sig, 6 + lenS + lenR, false)
  else
    let sig := put sig 0 [0x30]
    let sig := put sig 1 [UInt8.ofNat (4 + lenS + lenR)]
    let sig := put sig 2 [0x02]
    let sig := put sig 3 [UInt8.ofNat lenR]
    let sig := put sig 4 rp
    let sig := put sig (4 + lenR) [0x02]
    let sig := put sig (5 + lenR) [UInt8.ofNat lenS]
    let sig := put sig (lenR + 6) sp
    (sig, 6 + lenS + lenR, true)

/-- `secp256k1_ecdsa_sig_verify`, ecdsa_impl.h:195-264.  The scalar inverse is the inverse modulo
`n` (0 for 0); the code that computes it is the subject of C46. -/
def ecdsaSigVerify (sigr sigs : Fn) (pubkey : Ge Fp) (message : Fn) : Bool :=
  if scIsZero sigr || scIsZero sigs then false
  else
    let sn := sigs⁻¹
    let u1 := sn * message
    let u2 := sn * sigr
    let pr := ecmult (gejSetGe pubkey) u2 (some u1)
    if pr.infinity then false
    else
      let xr := (feSetB32Limit (scGetB32 sigr)).1
      if gejEqXVar xr pr then true
      else if feCmpVar xr ecdsaPMinusOrder ≥ 0 then false
      else gejEqXVar (FeOps.add xr ecdsaOrderAsFe) pr

/-- What `secp256k1_ecdsa_sig_sign` writes and returns. -/
structure SigOut where
  r : Fn
  s : Fn
  recid : Nat
  ret : Bool

/-- `secp256k1_ecdsa_sig_sign`, ecdsa_impl.h:266-302.  `recid` is computed whether or not the caller
asked for it. -/
def ecdsaSigSign (gen : GenCtx) (seckey message nonce : Fn) : SigOut :=
  let rp := ecmultGen gen nonce
  let r := geSetGej rp
  let b := feGetB32 (FeOps.normalize r.x)
  let set := scSetB32 b
  let sigr := set.1
  let recid := (if set.2 then 2 else 0) ||| (if feIsOdd (FeOps.normalize r.y) then 1 else 0)
  let m := sigr * seckey
  let m := m + message
  let sigs := nonce⁻¹
  let sigs := sigs * m
  let high := scIsHigh sigs
  let sigs := scCondNegate sigs high
  let recid := recid ^^^ (if high then 1 else 0)
  ⟨sigr, sigs, recid, !scIsZero sigr && !scIsZero sigs⟩

end Secp.Model
