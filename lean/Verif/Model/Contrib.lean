import Verif.Model.ApiEcdsa

/-!
# Model of `/repo/contrib`: the lax DER parsers

`contrib/lax_der_parsing.c` and `contrib/lax_der_privatekey_parsing.c`.  The code indexes the input with
a position, and so does the model: a read at a position outside the input is the outcome `ub`.
`W` is `sizeof(size_t)`; `size_t` arithmetic wraps at `2^(8·W)`.
-/

namespace Secp.Model

/-- The steps of a parser in sequence: undefined behaviour and `return 0` end it. -/
def Der.bind {α β : Type} : Der α → (α → Der β) → Der β
  | .ub, _ => .ub
  | .fail, _ => .fail
  | .ok a, f => f a

/-- `input[pos]` -/
def rdAt (input : List UInt8) (pos : Nat) : Der UInt8 :=
  match input[pos]? with
  | none => .ub
  | some b => .ok b

/-- `memcpy(dst, input + pos, len)`: the bytes copied. -/
def copyAt (input : List UInt8) (pos len : Nat) : Der (List UInt8) :=
  if pos + len ≤ input.length then .ok ((input.drop pos).take len) else .ub

/-- `a - b` in `size_t`. -/
def sizeSub (W a b : Nat) : Nat := (a + 2 ^ (8 * W) - b) % 2 ^ (8 * W)

/-- The loops that skip zero bytes, lax_der_parsing.c:56-59, 94-97, 116-119 and 128-131: the remaining
length and the new position. -/
def laxZeros (input : List UInt8) : Nat → Nat → Der (Nat × Nat)
  | 0, pos => .ok (0, pos)
  | l + 1, pos =>
    (rdAt input pos).bind fun b => if b = 0 then laxZeros input l (pos + 1) else .ok (l + 1, pos)

/-- The loops that read a length, lax_der_parsing.c:63-68 and 101-106: the length and the new
position. -/
def laxLenLoop (W : Nat) (input : List UInt8) : Nat → Nat → Nat → Der (Nat × Nat)
  | 0, pos, rlen => .ok (rlen, pos)
  | l + 1, pos, rlen =>
    (rdAt input pos).bind fun b =>
      laxLenLoop W input l (pos + 1) (((rlen <<< 8) % 2 ^ (8 * W) + b.toNat) % 2 ^ (8 * W))

/-- The length of an integer, lax_der_parsing.c:50-71 and 88-109. -/
def laxReadLen (W : Nat) (input : List UInt8) (pos : Nat) : Der (Nat × Nat) :=
  (rdAt input pos).bind fun lenbyte =>
    let pos := pos + 1
    if lenbyte &&& 0x80 ≠ 0 then
      let lenbyte := lenbyte.toNat - 0x80
      if lenbyte > sizeSub W input.length pos then .fail
      else
        (laxZeros input lenbyte pos).bind fun z =>
          if z.1 ≥ W then .fail else laxLenLoop W input z.1 z.2 0
    else .ok (lenbyte.toNat, pos)

/-- An integer, lax_der_parsing.c:40-76 and 78-113: its position and length, and the position behind
it. -/
def laxInteger (W : Nat) (input : List UInt8) (pos : Nat) : Der (Nat × Nat × Nat) :=
  if pos = input.length then .fail
  else
    (rdAt input pos).bind fun t =>
      if t ≠ 0x02 then .fail
      else
        let pos := pos + 1
        if pos = input.length then .fail
        else
          (laxReadLen W input pos).bind fun q =>
            if q.1 > sizeSub W input.length q.2 then .fail else .ok (q.2, q.1, q.2 + q.1)

/-- The sequence tag and length, lax_der_parsing.c:21-38: the position behind them. -/
def laxHeader (W : Nat) (input : List UInt8) : Der Nat :=
  if 0 = input.length then .fail
  else
    (rdAt input 0).bind fun t =>
      if t ≠ 0x30 then .fail
      else if 1 = input.length then .fail
      else
        (rdAt input 1).bind fun lenbyte =>
          if lenbyte &&& 0x80 ≠ 0 then
            let lenbyte := lenbyte.toNat - 0x80
            if lenbyte > sizeSub W input.length 2 then .fail else .ok (2 + lenbyte)
          else .ok 2

/-- Copying one number into its half of `tmpsig`, lax_der_parsing.c:115-125 and 127-137; `none` when it
sets `overflow`. -/
def laxCopy (input : List UInt8) (pos len : Nat) : Der (Option (List UInt8)) :=
  (laxZeros input len pos).bind fun z =>
    if z.1 > 32 then .ok none
    else (copyAt input z.2 z.1).bind fun b => .ok (some (zeros (32 - z.1) ++ b))

/-- The parsing part of `ecdsa_signature_parse_der_lax`, lax_der_parsing.c:21-137: `tmpsig`, or `none`
when `overflow` is set. -/
def laxNumbers (W : Nat) (input : List UInt8) : Der (Option (List UInt8)) :=
  (laxHeader W input).bind fun pos =>
    (laxInteger W input pos).bind fun r =>
      (laxInteger W input r.2.2).bind fun s =>
        (laxCopy input r.1 r.2.1).bind fun a =>
          (laxCopy input s.1 s.2.1).bind fun b =>
            match a, b with
            | some a, some b => .ok (some (a ++ b))
            | _, _ => .ok none

/-- `ecdsa_signature_parse_der_lax`, lax_der_parsing.c:11-147.  `none` is undefined behaviour.  The
declaration requires `input` not to be NULL. -/
def ecdsaSignatureParseDerLax (W : Nat) (sig : Option (List UInt8)) (input : List UInt8) :
    Option (Out (Option (List UInt8))) :=
  let o := ecdsaSignatureParseCompact sig (some (zeros 64))
  match laxNumbers W input with
  | .ub => none
  | .fail => some ⟨0, o.illegal, o.val⟩
  | .ok tmpsig =>
    match tmpsig with
    | none =>
      let o2 := ecdsaSignatureParseCompact o.val (some (zeros 64))
      some ⟨1, o.illegal + o2.illegal, o2.val⟩
    | some tmpsig =>
      let o1 := ecdsaSignatureParseCompact o.val (some tmpsig)
      if o1.ret ≠ 0 then some ⟨1, o.illegal + o1.illegal, o1.val⟩
      else
        let o2 := ecdsaSignatureParseCompact o1.val (some (zeros 64))
        some ⟨1, o.illegal + o1.illegal + o2.illegal, o2.val⟩

/-- The sequence header in `ec_privkey_import_der`, lax_der_privatekey_parsing.c:16-37: the position behind
it.  Pointers are positions; comparing a pointer that lies behind the end of the array, which C leaves
undefined, compares the positions. -/
def privkeyImportHeader (privkey : List UInt8) : Der Nat :=
  let «end» := privkey.length
  if «end» < 1 then .fail
  else
    (rdAt privkey 0).bind fun t =>
    if t ≠ 0x30 then .fail
    else if «end» < 2 then .fail
    else
      (rdAt privkey 1).bind fun c =>
      if c &&& 0x80 = 0 then .fail
      else
        let lenb := (c &&& 0x7F).toNat
        if lenb < 1 ∨ lenb > 2 then .fail
        else if «end» < 2 + lenb then .fail
        else
          (rdAt privkey (2 + lenb - 1)).bind fun lo =>
          (if lenb > 1 then rdAt privkey (2 + lenb - 2) else .ok 0).bind fun hi =>
          let len := lo.toNat ||| (if lenb > 1 then hi.toNat <<< 8 else 0)
          let pos := 2 + lenb
          if «end» < pos + len then .fail else .ok pos

/-- The version and the key in `ec_privkey_import_der`, lax_der_privatekey_parsing.c:38-47: the contents of
`out32`. -/
def privkeyImportKey (privkey : List UInt8) (pos : Nat) : Der (List UInt8) :=
  let «end» := privkey.length
  if «end» < pos + 3 then .fail
  else
    (rdAt privkey pos).bind fun v0 =>
    (rdAt privkey (pos + 1)).bind fun v1 =>
    (rdAt privkey (pos + 2)).bind fun v2 =>
    if v0 ≠ 0x02 ∨ v1 ≠ 0x01 ∨ v2 ≠ 0x01 then .fail
    else
      let pos := pos + 3
      if «end» < pos + 2 then .fail
      else
        (rdAt privkey pos).bind fun t =>
        (rdAt privkey (pos + 1)).bind fun k =>
        if t ≠ 0x04 ∨ k > 0x20 ∨ «end» < pos + 2 + k.toNat then .fail
        else
          (copyAt privkey (pos + 2) k.toNat).bind fun b => .ok (put (zeros 32) (32 - k.toNat) b)

/-- `ec_privkey_import_der`, lax_der_privatekey_parsing.c:11-53: memory `out32`; `none` is undefined
behaviour. -/
def ecPrivkeyImportDer (privkey : List UInt8) : Option (Out (List UInt8)) :=
  match (privkeyImportHeader privkey).bind (privkeyImportKey privkey) with
  | .ub => none
  | .fail => some ⟨0, 0, zeros 32⟩
  | .ok out32 =>
    let v := ecSeckeyVerify (some out32)
    if v.ret = 0 then some ⟨0, v.illegal, zeros 32⟩ else some ⟨1, v.illegal, out32⟩

/-- lax_der_privatekey_parsing.c:63-65 -/
def exportBeginC : List UInt8 := [0x30,0x81,0xD3,0x02,0x01,0x01,0x04,0x20]

/-- lax_der_privatekey_parsing.c:66-76 -/
def exportMiddleC : List UInt8 := [
  0xA0,0x81,0x85,0x30,0x81,0x82,0x02,0x01,0x01,0x30,0x2C,0x06,0x07,0x2A,0x86,0x48,
  0xCE,0x3D,0x01,0x01,0x02,0x21,0x00,0xFF,0xFF,0xFF,0xFF,0xFF,0xFF,0xFF,0xFF,0xFF,
  0xFF,0xFF,0xFF,0xFF,0xFF,0xFF,0xFF,0xFF,0xFF,0xFF,0xFF,0xFF,0xFF,0xFF,0xFF,0xFF,
  0xFF,0xFF,0xFE,0xFF,0xFF,0xFC,0x2F,0x30,0x06,0x04,0x01,0x00,0x04,0x01,0x07,0x04,
  0x21,0x02,0x79,0xBE,0x66,0x7E,0xF9,0xDC,0xBB,0xAC,0x55,0xA0,0x62,0x95,0xCE,0x87,
  0x0B,0x07,0x02,0x9B,0xFC,0xDB,0x2D,0xCE,0x28,0xD9,0x59,0xF2,0x81,0x5B,0x16,0xF8,
  0x17,0x98,0x02,0x21,0x00,0xFF,0xFF,0xFF,0xFF,0xFF,0xFF,0xFF,0xFF,0xFF,0xFF,0xFF,
  0xFF,0xFF,0xFF,0xFF,0xFE,0xBA,0xAE,0xDC,0xE6,0xAF,0x48,0xA0,0x3B,0xBF,0xD2,0x5E,
  0x8C,0xD0,0x36,0x41,0x41,0x02,0x01,0x01,0xA1,0x24,0x03,0x22,0x00]

/-- lax_der_privatekey_parsing.c:86-88 -/
def exportBeginU : List UInt8 := [0x30,0x82,0x01,0x13,0x02,0x01,0x01,0x04,0x20]

/-- lax_der_privatekey_parsing.c:89-101 -/
def exportMiddleU : List UInt8 := [
  0xA0,0x81,0xA5,0x30,0x81,0xA2,0x02,0x01,0x01,0x30,0x2C,0x06,0x07,0x2A,0x86,0x48,
  0xCE,0x3D,0x01,0x01,0x02,0x21,0x00,0xFF,0xFF,0xFF,0xFF,0xFF,0xFF,0xFF,0xFF,0xFF,
  0xFF,0xFF,0xFF,0xFF,0xFF,0xFF,0xFF,0xFF,0xFF,0xFF,0xFF,0xFF,0xFF,0xFF,0xFF,0xFF,
  0xFF,0xFF,0xFE,0xFF,0xFF,0xFC,0x2F,0x30,0x06,0x04,0x01,0x00,0x04,0x01,0x07,0x04,
  0x41,0x04,0x79,0xBE,0x66,0x7E,0xF9,0xDC,0xBB,0xAC,0x55,0xA0,0x62,0x95,0xCE,0x87,
  0x0B,0x07,0x02,0x9B,0xFC,0xDB,0x2D,0xCE,0x28,0xD9,0x59,0xF2,0x81,0x5B,0x16,0xF8,
  0x17,0x98,0x48,0x3A,0xDA,0x77,0x26,0xA3,0xC4,0x65,0x5D,0xA4,0xFB,0xFC,0x0E,0x11,
  0x08,0xA8,0xFD,0x17,0xB4,0x48,0xA6,0x85,0x54,0x19,0x9C,0x47,0xD0,0x8F,0xFB,0x10,
  0xD4,0xB8,0x02,0x21,0x00,0xFF,0xFF,0xFF,0xFF,0xFF,0xFF,0xFF,0xFF,0xFF,0xFF,0xFF,
  0xFF,0xFF,0xFF,0xFF,0xFE,0xBA,0xAE,0xDC,0xE6,0xAF,0x48,0xA0,0x3B,0xBF,0xD2,0x5E,
  0x8C,0xD0,0x36,0x41,0x41,0x02,0x01,0x01,0xA1,0x44,0x03,0x42,0x00]

/-- One branch of `ec_privkey_export_der`, lax_der_privatekey_parsing.c:77-84 and 102-109: the buffer
and `*privkeylen`; `none` when a write leaves the buffer. -/
def exportBody (begin middle : List UInt8) (pubkeylen : Nat) (flags : UInt32) (privkey key32 pubkey : List UInt8) :
    Option (Nat × List UInt8 × Nat) :=
  if privkey.length < begin.length + 32 + middle.length + pubkeylen then none
  else
    let ptr := 0
    let buf := put privkey ptr begin
    let ptr := ptr + begin.length
    let buf := put buf ptr (key32.take 32)
    let ptr := ptr + 32
    let buf := put buf ptr middle
    let ptr := ptr + middle.length
    let o := ecPubkeySerialize (some (buf.drop ptr)) (some pubkeylen) (some pubkey) flags
    let buf := put buf ptr (o.val.1.getD [])
    let ptr := ptr + o.val.2.getD 0
    some (o.illegal, buf, ptr)

/-- `ec_privkey_export_der`, lax_der_privatekey_parsing.c:55-112: memory `privkey`, `*privkeylen`; `none`
is undefined behaviour.  The declaration requires the pointers not to be NULL. -/
def ecPrivkeyExportDer (ctx : Ctx) (privkey : List UInt8) (key32 : List UInt8) (compressed : Bool) :
    Option (Out (List UInt8 × Nat)) :=
  let c := ecPubkeyCreate ctx (some (zeros 64)) (some key32)
  if c.ret = 0 then some ⟨0, c.illegal, (privkey, 0)⟩
  else
    let pubkey := c.val.getD []
    match (if compressed then exportBody exportBeginC exportMiddleC 33 ecCompressed privkey key32 pubkey
      else exportBody exportBeginU exportMiddleU 65 ecUncompressed privkey key32 pubkey) with
    | none => none
    | some r => some ⟨1, c.illegal + r.1, r.2⟩

end Secp.Model
