/-!
# Model of src/hash_impl.h (and the byte order helpers of src/util.h)

Bytes are `UInt8`, words `UInt32`, the byte counter `UInt64`: the unsigned wrap-around arithmetic
of C.  A `const unsigned char *` with its length is a `List UInt8`; a fixed-size array is a list
whose length is an invariant.
-/

namespace Secp.Hash

/-- `secp256k1_read_be32`, src/util.h:400-405; `p` is the buffer from the pointer on. -/
def readBe32 (p : List UInt8) : UInt32 :=
  (p.getD 0 0).toUInt32 <<< 24 ||| (p.getD 1 0).toUInt32 <<< 16 |||
  (p.getD 2 0).toUInt32 <<< 8 ||| (p.getD 3 0).toUInt32

/-- `secp256k1_write_be32`, src/util.h:408-413: the four bytes written. -/
def writeBe32 (x : UInt32) : List UInt8 :=
  [(x >>> 24).toUInt8, (x >>> 16).toUInt8, (x >>> 8).toUInt8, x.toUInt8]

/-- The macros of src/hash_impl.h:17-22. -/
def Ch (x y z : UInt32) : UInt32 := z ^^^ (x &&& (y ^^^ z))
def Maj (x y z : UInt32) : UInt32 := (x &&& y) ||| (z &&& (x ||| y))
def Sigma0 (x : UInt32) : UInt32 :=
  (x >>> 2 ||| x <<< 30) ^^^ (x >>> 13 ||| x <<< 19) ^^^ (x >>> 22 ||| x <<< 10)
def Sigma1 (x : UInt32) : UInt32 :=
  (x >>> 6 ||| x <<< 26) ^^^ (x >>> 11 ||| x <<< 21) ^^^ (x >>> 25 ||| x <<< 7)
def sigma0 (x : UInt32) : UInt32 :=
  (x >>> 7 ||| x <<< 25) ^^^ (x >>> 18 ||| x <<< 14) ^^^ (x >>> 3)
def sigma1 (x : UInt32) : UInt32 :=
  (x >>> 17 ||| x <<< 15) ^^^ (x >>> 19 ||| x <<< 13) ^^^ (x >>> 10)

/-- The last argument of a `Round` line: `w_dst = read_be32(&buf[off])`,
`w_dst += sigma1(w_a) + w_b + sigma0(w_c)`, or the same sum without the assignment. -/
inductive WOp
  | load (dst off : Nat)
  | mix (dst a b c : Nat)
  | last (dst a b c : Nat)
  deriving DecidableEq, Repr

/-- One line `Round(r0, …, r7, k, w)`; registers `a … h` are numbered 0 … 7. -/
structure Line where
  regs : List Nat
  k : UInt32
  w : WOp
  deriving DecidableEq, Repr

/-- The 64 lines of `secp256k1_sha256_transform`, src/hash_impl.h:48-114, transcribed one by one. -/
def lines : List Line := [
  ⟨[0, 1, 2, 3, 4, 5, 6, 7], 0x428a2f98, .load 0 0⟩,
  ⟨[7, 0, 1, 2, 3, 4, 5, 6], 0x71374491, .load 1 4⟩,
  ⟨[6, 7, 0, 1, 2, 3, 4, 5], 0xb5c0fbcf, .load 2 8⟩,
  ⟨[5, 6, 7, 0, 1, 2, 3, 4], 0xe9b5dba5, .load 3 12⟩,
  ⟨[4, 5, 6, 7, 0, 1, 2, 3], 0x3956c25b, .load 4 16⟩,
  ⟨[3, 4, 5, 6, 7, 0, 1, 2], 0x59f111f1, .load 5 20⟩,
  ⟨[2, 3, 4, 5, 6, 7, 0, 1], 0x923f82a4, .load 6 24⟩,
  ⟨[1, 2, 3, 4, 5, 6, 7, 0], 0xab1c5ed5, .load 7 28⟩,
  ⟨[0, 1, 2, 3, 4, 5, 6, 7], 0xd807aa98, .load 8 32⟩,
  ⟨[7, 0, 1, 2, 3, 4, 5, 6], 0x12835b01, .load 9 36⟩,
  ⟨[6, 7, 0, 1, 2, 3, 4, 5], 0x243185be, .load 10 40⟩,
  ⟨[5, 6, 7, 0, 1, 2, 3, 4], 0x550c7dc3, .load 11 44⟩,
  ⟨[4, 5, 6, 7, 0, 1, 2, 3], 0x72be5d74, .load 12 48⟩,
  ⟨[3, 4, 5, 6, 7, 0, 1, 2], 0x80deb1fe, .load 13 52⟩,
  ⟨[2, 3, 4, 5, 6, 7, 0, 1], 0x9bdc06a7, .load 14 56⟩,
  ⟨[1, 2, 3, 4, 5, 6, 7, 0], 0xc19bf174, .load 15 60⟩,
  ⟨[0, 1, 2, 3, 4, 5, 6, 7], 0xe49b69c1, .mix 0 14 9 1⟩,
  ⟨[7, 0, 1, 2, 3, 4, 5, 6], 0xefbe4786, .mix 1 15 10 2⟩,
  ⟨[6, 7, 0, 1, 2, 3, 4, 5], 0x0fc19dc6, .mix 2 0 11 3⟩,
  ⟨[5, 6, 7, 0, 1, 2, 3, 4], 0x240ca1cc, .mix 3 1 12 4⟩,
  ⟨[4, 5, 6, 7, 0, 1, 2, 3], 0x2de92c6f, .mix 4 2 13 5⟩,
  ⟨[3, 4, 5, 6, 7, 0, 1, 2], 0x4a7484aa, .mix 5 3 14 6⟩,
  ⟨[2, 3, 4, 5, 6, 7, 0, 1], 0x5cb0a9dc, .mix 6 4 15 7⟩,
  ⟨[1, 2, 3, 4, 5, 6, 7, 0], 0x76f988da, .mix 7 5 0 8⟩,
  ⟨[0, 1, 2, 3, 4, 5, 6, 7], 0x983e5152, .mix 8 6 1 9⟩,
  ⟨[7, 0, 1, 2, 3, 4, 5, 6], 0xa831c66d, .mix 9 7 2 10⟩,
  ⟨[6, 7, 0, 1, 2, 3, 4, 5], 0xb00327c8, .mix 10 8 3 11⟩,
  ⟨[5, 6, 7, 0, 1, 2, 3, 4], 0xbf597fc7, .mix 11 9 4 12⟩,
  ⟨[4, 5, 6, 7, 0, 1, 2, 3], 0xc6e00bf3, .mix 12 10 5 13⟩,
  ⟨[3, 4, 5, 6, 7, 0, 1, 2], 0xd5a79147, .mix 13 11 6 14⟩,
  ⟨[2, 3, 4, 5, 6, 7, 0, 1], 0x06ca6351, .mix 14 12 7 15⟩,
  ⟨[1, 2, 3, 4, 5, 6, 7, 0], 0x14292967, .mix 15 13 8 0⟩,
  ⟨[0, 1, 2, 3, 4, 5, 6, 7], 0x27b70a85, .mix 0 14 9 1⟩,
  ⟨[7, 0, 1, 2, 3, 4, 5, 6], 0x2e1b2138, .mix 1 15 10 2⟩,
  ⟨[6, 7, 0, 1, 2, 3, 4, 5], 0x4d2c6dfc, .mix 2 0 11 3⟩,
  ⟨[5, 6, 7, 0, 1, 2, 3, 4], 0x53380d13, .mix 3 1 12 4⟩,
  ⟨[4, 5, 6, 7, 0, 1, 2, 3], 0x650a7354, .mix 4 2 13 5⟩,
  ⟨[3, 4, 5, 6, 7, 0, 1, 2], 0x766a0abb, .mix 5 3 14 6⟩,
  ⟨[2, 3, 4, 5, 6, 7, 0, 1], 0x81c2c92e, .mix 6 4 15 7⟩,
  ⟨[1, 2, 3, 4, 5, 6, 7, 0], 0x92722c85, .mix 7 5 0 8⟩,
  ⟨[0, 1, 2, 3, 4, 5, 6, 7], 0xa2bfe8a1, .mix 8 6 1 9⟩,
  ⟨[7, 0, 1, 2, 3, 4, 5, 6], 0xa81a664b, .mix 9 7 2 10⟩,
  ⟨[6, 7, 0, 1, 2, 3, 4, 5], 0xc24b8b70, .mix 10 8 3 11⟩,
  ⟨[5, 6, 7, 0, 1, 2, 3, 4], 0xc76c51a3, .mix 11 9 4 12⟩,
  ⟨[4, 5, 6, 7, 0, 1, 2, 3], 0xd192e819, .mix 12 10 5 13⟩,
  ⟨[3, 4, 5, 6, 7, 0, 1, 2], 0xd6990624, .mix 13 11 6 14⟩,
  ⟨[2, 3, 4, 5, 6, 7, 0, 1], 0xf40e3585, .mix 14 12 7 15⟩,
  ⟨[1, 2, 3, 4, 5, 6, 7, 0], 0x106aa070, .mix 15 13 8 0⟩,
  ⟨[0, 1, 2, 3, 4, 5, 6, 7], 0x19a4c116, .mix 0 14 9 1⟩,
  ⟨[7, 0, 1, 2, 3, 4, 5, 6], 0x1e376c08, .mix 1 15 10 2⟩,
  ⟨[6, 7, 0, 1, 2, 3, 4, 5], 0x2748774c, .mix 2 0 11 3⟩,
  ⟨[5, 6, 7, 0, 1, 2, 3, 4], 0x34b0bcb5, .mix 3 1 12 4⟩,
  ⟨[4, 5, 6, 7, 0, 1, 2, 3], 0x391c0cb3, .mix 4 2 13 5⟩,
  ⟨[3, 4, 5, 6, 7, 0, 1, 2], 0x4ed8aa4a, .mix 5 3 14 6⟩,
  ⟨[2, 3, 4, 5, 6, 7, 0, 1], 0x5b9cca4f, .mix 6 4 15 7⟩,
  ⟨[1, 2, 3, 4, 5, 6, 7, 0], 0x682e6ff3, .mix 7 5 0 8⟩,
  ⟨[0, 1, 2, 3, 4, 5, 6, 7], 0x748f82ee, .mix 8 6 1 9⟩,
  ⟨[7, 0, 1, 2, 3, 4, 5, 6], 0x78a5636f, .mix 9 7 2 10⟩,
  ⟨[6, 7, 0, 1, 2, 3, 4, 5], 0x84c87814, .mix 10 8 3 11⟩,
  ⟨[5, 6, 7, 0, 1, 2, 3, 4], 0x8cc70208, .mix 11 9 4 12⟩,
  ⟨[4, 5, 6, 7, 0, 1, 2, 3], 0x90befffa, .mix 12 10 5 13⟩,
  ⟨[3, 4, 5, 6, 7, 0, 1, 2], 0xa4506ceb, .mix 13 11 6 14⟩,
  ⟨[2, 3, 4, 5, 6, 7, 0, 1], 0xbef9a3f7, .last 14 12 7 15⟩,
  ⟨[1, 2, 3, 4, 5, 6, 7, 0], 0xc67178f2, .last 15 13 8 0⟩]

/-- Value of the last macro argument and the message words after evaluating it. -/
def WOp.eval (buf : List UInt8) (w : List UInt32) : WOp → UInt32 × List UInt32
  | .load dst off =>
    let v := readBe32 (buf.drop off)
    (v, w.set dst v)
  | .mix dst a b c =>
    let v := w.getD dst 0 + (sigma1 (w.getD a 0) + w.getD b 0 + sigma0 (w.getD c 0))
    (v, w.set dst v)
  | .last dst a b c =>
    (w.getD dst 0 + sigma1 (w.getD a 0) + w.getD b 0 + sigma0 (w.getD c 0), w)

/-- The macro `Round`, src/hash_impl.h:24-29, on the register file `r` and message words `w`. -/
def Line.exec (buf : List UInt8) (l : Line) (rw : List UInt32 × List UInt32) :
    List UInt32 × List UInt32 :=
  let r := rw.1
  let reg := fun i => r.getD (l.regs.getD i 0) 0
  let v := l.w.eval buf rw.2
  let t1 := reg 7 + Sigma1 (reg 4) + Ch (reg 4) (reg 5) (reg 6) + l.k + v.1
  let t2 := Sigma0 (reg 0) + Maj (reg 0) (reg 1) (reg 2)
  let r := r.set (l.regs.getD 3 0) (reg 3 + t1)
  let r := r.set (l.regs.getD 7 0) (t1 + t2)
  (r, v.2)

/-- `secp256k1_sha256_transform`, src/hash_impl.h:44-124.  The message words start out
unspecified in C; they are all loaded before use, the model starts them at 0. -/
def transform (s : List UInt32) (buf : List UInt8) : List UInt32 :=
  let r := (lines.foldl (fun rw l => l.exec buf rw) (s, List.replicate 16 0)).1
  (List.range 8).map fun i => s.getD i 0 + r.getD i 0

/-- `secp256k1_sha256`, src/hash.h:13-17. -/
structure Sha where
  s : List UInt32
  buf : List UInt8
  bytes : UInt64
  deriving DecidableEq, Repr

/-- `secp256k1_sha256_initialize`, src/hash_impl.h:31-41; the buffer keeps its old content. -/
def init (h : Sha) : Sha :=
  { h with
    s := [0x6a09e667, 0xbb67ae85, 0x3c6ef372, 0xa54ff53a,
          0x510e527f, 0x9b05688c, 0x1f83d9ab, 0x5be0cd19]
    bytes := 0 }

/-- `memcpy(buf + off, data, data.length)`. -/
def memcpy (buf : List UInt8) (off : Nat) (data : List UInt8) : List UInt8 :=
  buf.take off ++ data ++ buf.drop (off + data.length)

/-- The while loop of `secp256k1_sha256_write` and the copy of the rest, src/hash_impl.h:130-142.
`fuel` bounds the iterations; `write` passes enough. -/
def writeLoop : Nat → List UInt32 → List UInt8 → Nat → List UInt8 → List UInt32 × List UInt8
  | 0, s, buf, _, _ => (s, buf)
  | fuel + 1, s, buf, bufsize, data =>
    if data.length ≥ 64 - bufsize then
      let chunk := 64 - bufsize
      let buf := memcpy buf bufsize (data.take chunk)
      writeLoop fuel (transform s buf) buf 0 (data.drop chunk)
    else if data.length ≠ 0 then (s, memcpy buf bufsize data)
    else (s, buf)

/-- `secp256k1_sha256_write`, src/hash_impl.h:126-143. -/
def write (h : Sha) (data : List UInt8) : Sha :=
  let bufsize := (h.bytes &&& 0x3F).toNat
  let r := writeLoop (data.length + 1) h.s h.buf bufsize data
  { s := r.1, buf := r.2, bytes := h.bytes + UInt64.ofNat data.length }

/-- `secp256k1_sha256_finalize`, src/hash_impl.h:145-159: output and final state. -/
def finalize (h : Sha) : List UInt8 × Sha :=
  let pad : List UInt8 := 0x80 :: List.replicate 63 0
  let sizedesc := writeBe32 (h.bytes >>> 29).toUInt32 ++ writeBe32 (h.bytes <<< 3).toUInt32
  let h' := write h (pad.take (1 + ((119 - h.bytes.toNat % 64) % 64)))
  let h' := write h' sizedesc
  (h'.s.flatMap writeBe32, { h' with s := List.replicate 8 0 })

/-- `secp256k1_sha256_initialize_tagged`, src/hash_impl.h:163-172. -/
def initializeTagged (h : Sha) (tag : List UInt8) : Sha :=
  let h := init h
  let h := write h tag
  let r := finalize h
  let h := init r.2
  let h := write h r.1
  write h r.1

/-- An uninitialised object: what the code declares on the stack.  The theorems quantify over the
content wherever it could matter. -/
def uninit : Sha := ⟨List.replicate 8 0, List.replicate 64 0, 0⟩

/-- `secp256k1_hmac_sha256`, src/hash.h:24-26. -/
structure Hmac where
  inner : Sha
  outer : Sha
  deriving DecidableEq, Repr

/-- The key block `rkey`, src/hash_impl.h:179-190. -/
def hmacRkey (key : List UInt8) : List UInt8 :=
  if key.length ≤ 64 then key ++ List.replicate (64 - key.length) 0
  else (finalize (write (init uninit) key)).1 ++ List.replicate 32 0

/-- `secp256k1_hmac_sha256_initialize`, src/hash_impl.h:178-204. -/
def hmacInitialize (h : Hmac) (key : List UInt8) : Hmac :=
  let rkey := hmacRkey key
  let rkey := rkey.map (· ^^^ 0x5c)
  let outer := write (init h.outer) rkey
  let rkey := rkey.map (· ^^^ (0x5c ^^^ 0x36))
  let inner := write (init h.inner) rkey
  ⟨inner, outer⟩

/-- `secp256k1_hmac_sha256_write`, src/hash_impl.h:206-208. -/
def hmacWrite (h : Hmac) (data : List UInt8) : Hmac := { h with inner := write h.inner data }

/-- `secp256k1_hmac_sha256_finalize`, src/hash_impl.h:210-216: the output. -/
def hmacFinalize (h : Hmac) : List UInt8 × Hmac :=
  let r := finalize h.inner
  let outer := write h.outer r.1
  let o := finalize outer
  (o.1, ⟨r.2, o.2⟩)

/-- `secp256k1_rfc6979_hmac_sha256`, src/hash.h:33-37. -/
structure Rng where
  v : List UInt8
  k : List UInt8
  retry : Int
  deriving DecidableEq, Repr

/-- The recurring pattern `hmac_initialize(&hmac, rng->k, 32); hmac_write(…) …; hmac_finalize` of
src/hash_impl.h:231-248 and 256-277, with the list of the written strings. -/
def hmacSeq (k : List UInt8) (ws : List (List UInt8)) : List UInt8 :=
  (hmacFinalize (ws.foldl hmacWrite (hmacInitialize ⟨uninit, uninit⟩ k))).1

/-- `secp256k1_rfc6979_hmac_sha256_initialize`, src/hash_impl.h:222-250. -/
def rngInitialize (key : List UInt8) : Rng :=
  let v := List.replicate 32 0x01
  let k := List.replicate 32 0x00
  let k := hmacSeq k [v, [0x00], key]
  let v := hmacSeq k [v]
  let k := hmacSeq k [v, [0x01], key]
  let v := hmacSeq k [v]
  ⟨v, k, 0⟩

/-- The while loop of `secp256k1_rfc6979_hmac_sha256_generate`, src/hash_impl.h:267-278: output
and new `v`; `fuel` bounds the iterations, `rngGenerate` passes enough. -/
def rngLoop (k : List UInt8) : Nat → List UInt8 → Nat → List UInt8 × List UInt8
  | 0, v, _ => ([], v)
  | fuel + 1, v, outlen =>
    if outlen > 0 then
      let now := outlen
      let v := hmacSeq k [v]
      let now := if now > 32 then 32 else now
      let r := rngLoop k fuel v (outlen - now)
      (v.take now ++ r.1, r.2)
    else ([], v)

/-- `secp256k1_rfc6979_hmac_sha256_generate`, src/hash_impl.h:252-281. -/
def rngGenerate (rng : Rng) (outlen : Nat) : List UInt8 × Rng :=
  let kv := if rng.retry ≠ 0 then
      let k := hmacSeq rng.k [rng.v, [0x00]]
      (k, hmacSeq k [rng.v])
    else (rng.k, rng.v)
  let r := rngLoop kv.1 outlen kv.2 outlen
  (r.1, ⟨r.2, kv.1, 1⟩)

end Secp.Hash
