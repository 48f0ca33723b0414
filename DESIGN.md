# Formal model of bitcoin-core/secp256k1 in Lean 4

The model lives in `lean/Verif`. It has four kinds of modules.

* `Verif/Spec/*`  - small specifications, written from the standards (SEC1, FIPS 180-4, RFC 2104, RFC 6979,
  BIP-324, BIP-327, BIP-340 texts), not from the C code.  Curve points are Mathlib's
  `WeierstrassCurve.Affine.Point` over `ZMod p`.
* `Verif/Model/*` - the model of the C code, function by function.  Each definition cites file and lines.
* `Verif/Proof/*` - helper lemmas.
* `Verif/Props/*` - the property theorems (`C01_…`, `C02_…`), each with a concrete case beside it.

## Trusted base

* Lean's kernel (4.33.0).  Mathlib is used as a library; everything taken from it is checked by the kernel too.
* Axioms.  Every theorem named in `MANIFEST.json` depends on a subset of `propext`, `Classical.choice` and
  `Quot.sound`, the three axioms of Lean's standard library.  `AXIOMS.txt` lists the axioms of every claimed
  theorem, as printed by `#print axioms`.  There is no axiom of our own, no `sorry`, no `native_decide` and no
  `bv_decide`.  `decide +kernel` is used for computations on constants (tables, certificates, midstates,
  finite case tables); the kernel evaluates them.
* The reading of the C code.  That the definitions in `Verif/Model` say what the C code does is not proved; it
  rests on the citations.  The simplifications are listed below and in the comments.
* The specifications in `Verif/Spec` and the statements in `Verif/Props`.

## Layers of the model

1. **Limb layer** (`Model/Field5x52`, `Model/Scalar4x64`, `Model/Modinv64`; `Model/Field10x26`,
   `Model/Scalar8x32`, `Model/Modinv32` for 32-bit targets): 64-bit words are `Nat` with
   explicit `% 2^64` at every operation, 128-bit accumulators with explicit `% 2^128`; signed words are `Int`
   with explicit two's complement wrap.  Proved to refine the value layer (C44, C45, C46): equality modulo `p`
   or `n`, documented magnitudes, no lost carry.
2. **Value layer** (`Model/FeOps`, `Model/Scalar`): a field element is a `ZMod p`, a scalar a `ZMod n`.
3. **Group layer** (`Model/Group`, `GroupX`, `GroupAll`): `ge`/`gej` with their `infinity` flag and the exact
   formulas of `group_impl.h`, polymorphic in the field (`FeOps α`).  Over `Fp` they are proved to compute the
   group law of Mathlib's points for all inputs (C41); over 5x52 limbs they are proved to stay within the
   magnitudes and to represent the same points (C58), and likewise over 10x26 limbs (C67).
   `Model/Inplace`, `InplaceAll`: the same functions on a memory, with pointers that may be equal, the output used as
   scratch space and `none` where `field_impl.h` excludes overlapping arguments (C78).  Objects are whole points
   (no partial overlap); a field function reads its arguments before it writes its result.
4. **Multiplication layer** (`Model/Ecmult*`, `MultiSimple`, `EcmultMulti`): wNAF, Strauss, Pippenger, comb
   (`ecmult_gen` with blinding), `ecmult_const`, `ecmult_const_xonly`, proved to be scalar multiplication
   for field elements by value (C42, C43, C53).  All are polymorphic in the field and proved exact over the limbs
   of both implementations: `ecmult`, `strauss`, `ecmult_const` and `ecmult_gen` in C68, `ecmult_const_xonly` as used
   by C71 (`Model/Limb/Ellswift`), the multi-point multiplication with Pippenger's algorithm in C77.
5. **Hash layer** (`Model/Hash`, `TaggedSha`): SHA-256 with its buffer and byte counter, HMAC, the RFC 6979
   generator, tagged hashes with their midstates.
6. **API layer** (`Model/Api*`, `Context`, `Ecdsa`, `Ecdh`, `Extrakeys`, `Schnorr`, `Musig*`, `Ellswift`,
   `Objects`, `Hsort`, `Scratch`): every exported function over byte buffers and opaque objects (byte lists),
   with NULL pointers (`Option`), the illegal-argument callback (a counter in the result), context objects and
   output buffers (old contents in, new contents out).
   `Model/Limb/Api` holds these functions (keys, ECDSA, recovery, ECDH, extrakeys, Schnorr) a second time, with
   field elements in the limbs of either implementation, and C69 proves them equal to the first.  C70 does the
   same for the MuSig module (`Model/Limb/Musig.lean`) and C71 for ElligatorSwift (`Model/Limb/Ellswift.lean`).

## Conventions and simplifications that hold everywhere

* Configuration modelled: 64-bit little-endian target, int128 arithmetic, 5x52 field, 4x64 scalar, C (the
  x86_64 assembly of the scalar multiplication is proved equal to the C code in C72), the default window of
  the verification tables (`ECMULT_WINDOW_SIZE` 15; `ecmult` itself for every window in C75), every comb
  configuration that ecmult_gen.h accepts (a live context ranges over all of them), `WINDOW_A` 5, `VERIFY` off.
  The scratch space and the batch sizes (C53, C54, C57, C77) are for every `Target`: `size_t` of 32 or 64 bits and the
  structure sizes of either field implementation.  The
  `VERIFY_CHECK`s of the limb and group layers appear as proof obligations (magnitudes, ranges).
* The functions carry no record of timing, except in `Model/Leak.lean` and `Model/LeakApi.lean` (C62), where the
  functions that handle secrets are written a second time with a record of branches, computed memory positions,
  arguments of variable-time functions and declassified values, and proved equal to the first.  Single scalar and
  field operations, conditional moves, constant-time group functions and the SHA-256 compression are atomic steps
  there.  What compilers make of the source is outside the model.  Memory erasure (`memclear` of stack variables)
  is not modelled.
* The illegal callback is modelled as one that returns, so that what the function does afterwards is visible;
  the default one aborts, which only removes behaviour.
* A pointer argument is `Option`; a buffer is a `List UInt8`, and theorems assume the length the API documents.
  Overlapping buffers are not modelled, except where a function documents in-place use.
* Calling with `ctx == NULL` is undefined behaviour in C and outside the model.
* Hash functions, nonce functions and callbacks passed by the caller are arbitrary Lean functions of their
  inputs; a stateful callback is covered as far as its answers can be described by a function of its arguments.

## What is modelled and what is not

Modelled: all exported functions of `include/*.h` (core, ecdh, ellswift, extrakeys, musig, preallocated,
recovery, schnorrsig) and all static functions they use in the configuration above, down to machine words for
field, scalar and modular inversion code; `scratch_impl.h`, `hsort_impl.h` and the multi-point multiplication
(which the exported functions use without a scratch space); the precomputed tables, entry by entry; the emulated
128-bit integers of `int128_struct_impl.h` and the portable trailing-zero count of `util.h`; the 32-bit backends
`field_10x26` and `scalar_8x32` with `modinv32`.

Modelled besides: the x86_64 assembly of `scalar_4x64_impl.h` (C72, `Model/Asm/ScalarX86.lean`), instruction by
instruction on a machine with registers, the carry flag and a word-addressed memory.  The other flags are left out
(no instruction of these statements reads one).  The operands of the reduction's statements may be in any places
that the constraints allow: registers that are not clobbered and not used otherwise, or, where "g" or "m" allows it, memory that is
addressed independently of the registers (locals addressed through the stack or frame pointer).  Two statements
read the array `l` without a "memory" clobber; the model takes its words from memory, which is right because `l` is
written only by a statement with that clobber.  Immediates have the range that the instruction allows.

The ARM assembly `asm/field_10x26_arm.s` (C73, C74, `Model/Asm/FieldArm.lean`, `Model/Asm/FeArm.lean`) is modelled in the same way: registers,
the carry flag, a word-addressed memory, every instruction of the two functions including saving and restoring
registers and the return.

The programs that compute the static tables (C75, `Model/ComputeTable.lean`: `ecmult_compute_table_impl.h`,
`ecmult_gen_compute_table_impl.h`) are modelled as functions from the window or comb parameters and the base point
to the arrays; printing and compiling the arrays is not modelled.

The parsers of `contrib` (C76, `Model/Contrib.lean`) are compiled by users into their own programs; they are modelled
in full.

Builds with `VERIFY` (C80, `Model/Verify.lean`): `secp256k1_fe` has a magnitude and a flag, and every
`VERIFY_CHECK` of `field_impl.h` and of the point functions of `group_impl.h` is a step that can abort.  Left out there:
the checks that two pointers differ (C78), that an `int` is 0 or 1, the batch conversions and
`secp256k1_ge_set_all_gej*`, and the functions that convert to and from bytes.  Normalizations are claimed for magnitude at
most 31: with 32-bit limbs the bound for 32 does not suffice (C64).  `Model/VerifyEcmult.lean` (C81) adds the
multiplication code: `secp256k1_ecmult_strauss_wnaf`, `secp256k1_ecmult_const`, `secp256k1_ecmult_const_xonly`,
`secp256k1_ecmult_gen` and its blinding, and the checks of the scalar functions that they call; the field element and the
scalar that blinding reads from the generator of random numbers are arbitrary.  `Model/VerifyApi.lean` (C83) has the
checks of the hash code, of recovery and of the modules; `VERIFY_CHECK(ctx != NULL)` is left out, and so are the checks in
the hashes of `secp256k1_nonce_function_musig` (their inputs have less than 2^61 bytes).  `Model/VerifyScalar.lean`
(C84) has the checks of the scalar code on 64-bit limbs and `Model/VerifyModinv.lean`,
`Model/VerifyModinvVar.lean` and `Model/VerifyJacobi.lean` (C85 to C87) those inside
`secp256k1_modinv64`, `secp256k1_modinv64_var` and `secp256k1_jacobi64_maybe_var` with the native 128-bit type; the helpers of these checks (`secp256k1_modinv64_mul_cmp_62`,
`secp256k1_modinv64_det_check_pow2`) are modelled too.  `Model/VerifyField5.lean` (C88) has the checks inside the field
code on five limbs with the native 128-bit type and `Model/VerifyField10.lean` (C89) those inside the field code on ten.

The programs of `examples` (C79, `Model/Examples.lean`) are modelled as what they print at the end or how they stop
before that: `fill_random` is an input that may be missing, uninitialised variables have arbitrary contents, the
default illegal callback stops the program.  `printf`, the wiping of secrets with `secure_erase` and `examples_util.h`
are left out.  `musig.c` is modelled for any number of signers and any message of 32 bytes.

Not modelled: the MSVC intrinsics of `int128_struct_impl.h`, the small-group test code (`scalar_low`), the C text that the
table generators print, `VERIFY`-only code outside the functions of C80 to C89 (`get_bounds`, the checks of `secp256k1_fe_from_signed30`, the checks inside the 32-bit modular inverse, of the scalar functions on 32-bit limbs, of Pippenger's algorithm), `memclear`/`*_clear`,
`malloc` failure (`context_create` and `scratch_create` are modelled for a successful one), and
the default callbacks (which abort).

## Findings

Properties that turned out to be false of the code, or true only with an exception.  Each is stated and proved
as a theorem.

* **C51 is false.**  `secp256k1_ellswift_xdh` overwrites the overflow flag of `scalar_set_b32` (main_impl.h:574),
  so a secret key >= n that is not 0 mod n is silently reduced and 1 is returned, against its documentation.
  The negation is proved with a witness (`C51_false…`); the true part is `…_partial`.
* **C57 is false.**  `secp256k1_scratch_create` computes `base_alloc + size` without an overflow check: for sizes
  close to `SIZE_MAX` the block is smaller than the recorded `max_size`.
* **C49 has an exception.**  The encoder does not treat a hash-derived `u` that is a multiple of `p`; for such a
  `u` (probability 2^-223 or so) the encoding does not decode to the key (`C49_inverse_u_zero`).
* **C40 exceptions.**  `secp256k1_ecdh` and `secp256k1_ec_pubkey_combine` ignore the result of `pubkey_load`;
  the comparison and sorting functions have no failure return; `secp256k1_context_create` with bad flags calls
  the callback twice; `tweak_mul`, `ecdsa_verify`, `schnorrsig_verify` and `musig_nonce_gen` can return 0 before
  they look at the key.
* **C55 exceptions.**  Functions that only copy (`signature_serialize_*`, `keypair_sec`, `keypair_pub`, …) pass
  a zeroed object on with return value 1.
* **C29 caveat.**  `secp256k1_musig_pubkey_agg` does not test for an aggregate key at infinity and returns 1 with
  the all-zero key; **C31 caveat**: with a final nonce at infinity the generator is used and the aggregate
  signature does not verify.  Both need keys or nonces chosen to cancel.
* **C64: the documented bounds of the 10x26 field are not sufficient for magnitude 32.**  `field.h` admits every
  valid element (magnitude up to 32) to the normalizations and zero tests, but with limbs 0 and 1 close to the
  bound two 32-bit sums wrap around: `C64_bounds_insufficient` gives limbs of magnitude 32 that are not zero modulo
  `p` and are normalized to zero.  No sequence of field operations builds such limbs (`C64_normalize` with `Built`),
  so no caller is affected.
* C76: `ec_privkey_import_der` compares `end` with `privkey+len`, where `len` comes from the input; when it is too large
  the pointer lies behind the array and C leaves the addition undefined.  The model compares positions.  The lax
  signature parser rejects integers of `256^(sizeof(size_t)-1)` bytes and more (16 MiB on 32-bit targets), so the
  theorem that it accepts all strict DER has that bound.
* `secp256k1_jacobi64_maybe_var` joins two limbs of the modulus by `f.v[0] | (f.v[1] << 62)`, which is right only
  if limb 0 is not negative or limb 1 is zero.  This holds for the field modulus, the only one it is called with,
  but `modinv64.h` does not say so; it is a hypothesis of `C59_jacobi`.
* `nonce_function_rfc6979` with counter `UINT_MAX` does not return (modelled as `none`).
* `secp256k1_der_parse_integer` maps negative and oversized integers to 0 and accepts (stated in C05).

* Declassification (C62).  `secp256k1_musig_nonce_gen_counter` branches on a return value that includes whether
  the secret key is valid; this bit is already public, because the magic bytes of the secret nonce are declassified
  just before.  It relies on the public key in the keypair being public without declassifying it.
  `secp256k1_ellswift_create` declassifies the whole hash object, whose buffer still holds bytes of the secret
  key; the variable-time search does not read them (`C62_ellswift_search_public`).  Schnorr signing reveals the
  parity of the y coordinate of the nonce point before it is made even.

## Properties: what is modelled and how it is proved

| id | model | proof |
|---|---|---|
| C01, C02 | byte-level parser/serializer, objects | decision spec; square root as power (p+1)/4 by the addition chain |
| C03, C04 | cmp on serialized bytes, heap sort on lists with index arithmetic | order laws; loop invariants (heap, sorted suffix, permutation) |
| C05, C06 | DER reader/writer with positions and length arithmetic | equivalence with a grammar `Spec.Der`; round trip |
| C07, C08, C52 | compact form, normalization | arithmetic modulo n |
| C09 | verify including Jacobian x comparison and r+n case | group theorem + ecmult theorem vs `Spec.Ecdsa` |
| C10, C11, C12 | sign loop with abstract nonce function | algebra in ZMod n and the group; partial function of the loop |
| C13, C14, C15 | recovery module | algebra with the four recid cases |
| C16 - C20 | key API | group homomorphism laws |
| C21, C22 | ECDH with abstract hash function | ecmult_const theorem |
| C23 - C25, C56 | schnorrsig module | `Spec.Schnorr` (BIP-340) |
| C26 - C28 | extrakeys module; tweak sequences | induction over the list of tweaks |
| C29 - C35 | musig module; call histories as op lists | `Spec.Musig` (BIP-327), induction over signers, tweaks, ops |
| C36, C37 | hash code with buffers and counters | refinement to FIPS 180-4 / RFC 2104 / RFC 6979 specs for every split of the input |
| C38, C39 | context state machine with blinding | invariant over op lists: `gen_blind`/`ge_offset` cancel |
| C40 | API functions with `Option` arguments | case analysis; `Spec.Illegal` says when a call is illegal |
| C41, C58 | group formulas, by value and on limbs | refinement to Mathlib's group law; magnitude bookkeeping |
| C42, C43, C53 | multiplication algorithms | recoding invariants (wNAF, signed digits, comb), bucket sums, batch arithmetic, C41 |
| C44, C45 | 4x64 and 5x52 limbs | bounds and congruences, limb by limb |
| C46 | modinv64, constant and variable time | invariants of the divsteps matrices; termination (590 and 744 steps) by a certificate: a family of convex polygons (norms) that every step maps into the next one, checked by the kernel over exact integers |
| C47 | curve constants | Pratt certificates for p and n; n·G = 0 by computation; the group has no 2-torsion, Hasse-free counting by Lagrange and at most 2p+1 points |
| C48 - C51 | ellswift module | algebra of the XSwiftEC map |
| C54, C57 | scratch allocator, for every target | invariant over op lists with `SIZE_MAX` arithmetic |
| C55 | histories of API calls (`Made`) | induction over histories |
| C59 | jacobi64_maybe_var and fe_is_square_var on machine words | the sign bit kept in `jac` is shown to be the Jacobi symbol of the current pair relative to the start, through reciprocity and the supplementary laws for every batch of 62 steps |
| C60 | int128_struct_impl.h | each operation against the native one; congruence modulo 2^128 plus range |
| C61 | the de Bruijn fallbacks of util.h | `x & -x` is the lowest set bit; then a table of 32 or 64 cases |

Every property is also tested against wrong programs: `seeded/LOG.jsonl` records edits of the model, the claims
they break and the theorems that fail.
| C62 | the functions that handle secrets, with a record of what an observer sees | two executions side by side (a relational invariant): same public data, same shapes, arbitrary secrets; the record is the same as long as the declassified values are |
| C63 | the inverse map, the generator and the search loop of ElligatorSwift encoding | algebra in the field: the two families of cases are told apart by whether `u + ((u³+7+t²)/(√-3·t·u))²` is on the curve; existence and uniqueness of the case; the search by induction over its iterations against `Spec/EllswiftEnc.lean` |
| C64 | field_10x26_impl.h on 26-bit limbs (C code, no assembly); inverses in C66 | as C45; the elements that field operations can build are an inductive predicate, with two weighted sums of the limbs 0, 1 and 9 as the invariant that keeps normalizations from wrapping around |
| C65 | scalar_8x32_impl.h on 32-bit limbs (C code); inverses in C66 | as C44: the 96-bit accumulator of the multiplication macros is shown never to overflow column by column, comparisons limb by limb; agreement with the 64-bit code through the common residue |
| C66 | modinv32_impl.h and the conversions and callers in field_10x26_impl.h and scalar_8x32_impl.h | as C46 and C59: the division steps are those of the same abstract iteration, with 30 steps per round; the bounds on the number of steps are shared with C46 |
| C67 | group_impl.h on the limbs of field_10x26.h | the refinement of C58 is stated for an arbitrary field implementation with exact operations within magnitudes (`Proof/LimbRep`), instantiated with the 52-bit and the 26-bit limbs |
| C68 | ecmult_impl.h, ecmult_const_impl.h, ecmult_gen_impl.h on the limbs of both field implementations | the models are polymorphic in the field; for any implementation with exact operations within magnitudes the run on limbs is related step by step to the run on values (`Proof/EcmultLimb`), to which C42, C43 and the comb proof apply |
| C69 | secp256k1.c and the modules recovery, ecdh, extrakeys, schnorrsig with field elements in limbs of either implementation (`Model/Limb/Api`) | every function is related to the one on values: points by magnitude, points to be read by being normalized; loaded coordinates are normalized when the object is one the API wrote (`Canon`, `C69_objects`) |
| C70 | modules/musig with field elements in limbs of either implementation (`Model/Limb/Musig`), batch conversion to affine coordinates and the simple multi-multiplication over limbs | as C69; running products and suffix inverses of the batch conversion keep magnitude 1; caches written by the API are canonical (`C70_caches`) |
| C71 | modules/ellswift with field elements in limbs of either implementation (`Model/Limb/Ellswift`), `ge_x_on_curve_var`, `ge_x_frac_on_curve_var` and `ecmult_const_xonly` over limbs | as C69: magnitudes through every branch of the map and its inverse; the search by induction over its iterations |
| C72 | the x86_64 inline assembly of scalar_4x64_impl.h as instructions of a machine, with GCC operand constraints as a relation over all allowed placements (`Model/Asm/ScalarX86`) | a static check on each statement, evaluated by the kernel, shows that its run does not depend on the placement; the run of the idealized statement is evaluated symbolically in groups of multiply-accumulate instructions, and each group shown exact |
| C73 | asm/field_10x26_arm.s, instruction by instruction, and the calling convention (`Model/Asm/FieldArm`) | a symbolic execution of the code, proved to describe the machine (`Proof/Asm/ArmSound`) and evaluated by the kernel, yields 26 sums of products; these are the accumulators of the C code, for all words within the bounds |
| C74 | the field type `FeArm` whose multiplications run the ARM code from any caller state (`Model/Asm/FeArm`), and the API over it | C73 makes `FeArm` an instance of the limb interface that the proofs of C67 to C71 are about |
| C75 | `ecmult_compute_table`, `ecmult_compute_two_tables`, `ecmult_gen_compute_table` (`Model/ComputeTable`), `ecmult` over any window | induction over the loops with the point each entry stands for; affine coordinates are unique, so the shipped arrays are what the programs compute; a context built for any accepted comb is a valid comb |
| C76 | `contrib/lax_der_parsing.c`, `contrib/lax_der_privatekey_parsing.c` (`Model/Contrib`), with every read at an explicit position and `sizeof(size_t)` as a parameter; `Spec/Lax` states the accepted encodings | each parsing step either finds the encoded part of the input or fails and no such part exists; encodings are unique; C02, C05, C07, C09, C16 for the API calls inside |
| C77 | `ecmult_multi_var` and everything below it (`Model/EcmultMulti`, polymorphic in the field) on the limbs of both field implementations | refinement: every step on limbs stays within the magnitudes and stands for the step on values; C53 |
| C78 | the functions of `group_impl.h`, the table of odd multiples and the batch conversions on a memory with pointers (`Model/Inplace`, `InplaceAll`), statement by statement | symbolic execution for every choice of equal and different pointers; induction over arrays and programs; C58, C67 |
| C79 | the five programs of `examples/` as compositions of the API functions (`Model/Examples`): arbitrary contents of uninitialised memory, `fill_random` that may fail, `assert`, `EXIT_FAILURE` and a callback that stops the program | the API theorems (C02, C07, C12, C28, C31, C38, C49 …) chained call by call; induction over the signers |
| C80 | the field and point functions once more with the fields and the `VERIFY_CHECK`s of a `VERIFY` build, statement by statement (`Model/Verify`); an aborted program is `none`; `Spec/VerifyBuild` says what correctly recorded means | one lemma per field function (check by check, on `LimbRep`), chained through every statement of the point functions; Euler's criterion for the check in `fe_sqrt`; induction over programs |
| C81 | the multiplication code once more with its checks (`Model/VerifyEcmult`), a read outside of a table being an abort too; the hypotheses (points on the curve, builds) are in `Spec/VerifyMul` | the checks on digits from the invariants of the signed digit loops; no infinity in a table because the group has odd prime order and the multiples are below it (on isomorphic curves for the constant-time code); magnitudes chained as for C80; induction over lists of points and over blinding histories |
| C82 | `hsort_impl.h` on the bytes of one object, with `size_t` products, the exchange of elements in chunks of 64 bytes and every `VERIFY_CHECK` (`Model/HsortMem`); `none` is an access outside the object or a failed check | the bytes hold the elements (`Proof/HsortMem`), a simulation of the sort on elements (C04) step by step; the exchange by induction on the chunks |
| C83 | the functions of the hash code, of recovery and of the ElligatorSwift, extrakeys and MuSig modules with their `VERIFY_CHECK`s (`Model/VerifyApi`); `none` is an abort | each check follows from what is known at its place (lengths, points on the curve, squares, keys that were loaded before); otherwise the two models are the same term (`Proof/VerifyApi`); where a check can fail the exact condition is stated |
| C84 | the functions of `scalar_4x64_impl.h` and `scalar_impl.h` with their `VERIFY_CHECK`s, the carry checks of the accumulator macros included (`Model/VerifyScalar`); `none` is an abort | bounds on the accumulator after every step of the 512-bit product and its reductions (`Proof/VerifyScalar4`), exact carries for `cadd_bit` and `half`, the bounds of `split_lambda` from C81, C44 and C46 for the values |
| C85 | `secp256k1_modinv64` and the functions it calls with all their `VERIFY_CHECK`s, and the helpers that the checks call (`Model/VerifyModinv`); `none` is an abort or undefined behaviour | the loop of C46 again with the strict ranges of `f` and `g`, the matrix congruences modulo 2^64, the determinant by induction, the low bits of the two updates; the gcd for the last check; both directions (coprime or zero: passes, otherwise: aborts) |
| C86 | `secp256k1_modinv64_var` and the functions it calls with all their `VERIFY_CHECK`s, the comparison with a variable number of limbs included (`Model/VerifyModinvVar`); `none` is an abort or undefined behaviour | the loop of C46 again with the strict ranges of `f` and `g`; the division steps with two bits more of the words, so that the matrix check modulo 2^64 follows; the counter by the number of steps made; the comparison on fewer limbs is the one on five with zeros; both directions as in C85 |
| C87 | `secp256k1_jacobi64_maybe_var` with its `VERIFY_CHECK`s and twelve passes, and the functions it calls (`Model/VerifyJacobi`); `none` is an abort or undefined behaviour | the loop of C59 again with the ranges of `f` and `g`; strictness of `g < modulus` and `g > 0` from an entry of the matrix that stays positive, the determinant up to sign by induction; a loop with more passes finds what this one finds; C58 for the fallback |
| C88 | `secp256k1_fe_mul_inner`, `secp256k1_fe_sqr_inner`, the normalizations, the tests for zero, negation and halving of `field_5x52_impl.h` and `field_5x52_int128_impl.h` with every `VERIFY_CHECK`, `VERIFY_BITS` and `VERIFY_BITS_128` (`Model/VerifyField5`); `none` is an abort | the steps of the multiplication one by one, each intermediate value equal to an integer expression in the limbs whose bound is linear arithmetic over the bounds of the products of limbs; the carries of the normalizations for arbitrary limbs |
| C89 | `secp256k1_fe_mul_inner`, `secp256k1_fe_sqr_inner`, the normalizations, the tests for zero, negation and halving of `field_10x26_impl.h` with every `VERIFY_CHECK` and `VERIFY_BITS` (`Model/VerifyField10`); `none` is an abort | the columns of the multiplication one by one with the exact largest sums of products of limbs; the first pass of a normalization bounds the limbs whatever they were |
