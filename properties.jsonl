{"id": "C01", "title": "Public key parsing accepts exactly the SEC1 encodings of curve points", "statement": "secp256k1_ec_pubkey_parse returns 1 on a byte string if and only if the string is 33 bytes, starts with 02 or 03 and continues with a big-endian x < p for which x^3+7 is a square, or is 65 bytes, starts with 04, 06 or 07 and continues with x,y < p on the curve (with y parity matching the prefix for 06/07). On success the key object holds exactly that point; on failure the key object is all zero bytes.", "quantifier": "all byte strings of all lengths, all prior contents of the output object", "why_tests_cant": "There are about 2^512 inputs of each shape; the boundary x >= p and non-square x are sparse and a wrong acceptance on one of them is a consensus split.", "anchors": ["src/secp256k1.c: secp256k1_ec_pubkey_parse", "src/eckey_impl.h: secp256k1_eckey_pubkey_parse", "src/group_impl.h: secp256k1_ge_set_xo_var, secp256k1_ge_is_valid_var"]}
{"id": "C02", "title": "Public key serialization and parsing are inverse", "statement": "For every valid public key object, secp256k1_ec_pubkey_serialize in compressed (33 bytes) or uncompressed (65 bytes) form followed by secp256k1_ec_pubkey_parse returns 1 and gives the identical object; and for every accepted 33-byte or 04-prefixed 65-byte input, parse followed by serialize in that form gives back the same bytes. A too small output length is an illegal argument.", "quantifier": "all curve points other than infinity, both formats, all accepted inputs, all output buffer lengths", "why_tests_cant": "Round trips can only be sampled; both square roots and all parities must come back for every point.", "anchors": ["src/secp256k1.c: secp256k1_ec_pubkey_serialize, secp256k1_ec_pubkey_parse", "src/eckey_impl.h: secp256k1_eckey_pubkey_serialize"]}
{"id": "C03", "title": "Public key comparison is the lexicographic total order on compressed encodings", "statement": "secp256k1_ec_pubkey_cmp on two valid keys is negative, zero or positive exactly as the 33-byte compressed encodings compare lexicographically; it is zero iff the keys are equal, antisymmetric and transitive; an invalid key triggers the illegal callback and compares below every valid key.", "quantifier": "all pairs and triples of public key objects, valid or not", "why_tests_cant": "Order laws quantify over triples of 512-bit objects.", "anchors": ["src/secp256k1.c: secp256k1_ec_pubkey_cmp, secp256k1_memcmp_var (src/util.h)"]}
{"id": "C04", "title": "Public key sorting returns a sorted permutation", "statement": "secp256k1_ec_pubkey_sort leaves the pointer array a permutation of the original pointers, ascending under secp256k1_ec_pubkey_cmp, and terminates for every array.", "quantifier": "all arrays of valid public keys of every length, including duplicates, empty and singletons", "why_tests_cant": "The number of arrays is unbounded; heap sort bugs show on rare shapes (odd last child, ties).", "anchors": ["src/secp256k1.c: secp256k1_ec_pubkey_sort", "src/hsort_impl.h: secp256k1_hsort, secp256k1_heap_down"]}
{"id": "C05", "title": "DER signature parsing accepts exactly strict DER and reads the right numbers", "statement": "secp256k1_ecdsa_signature_parse_der returns 1 iff the input is a DER SEQUENCE (definite minimal length, nothing after it) of exactly two DER INTEGERs in minimal form; r and s in the object are the encoded integers when they lie in [0,n), and 0 when negative or not below n. On failure the signature object is all zero.", "quantifier": "all byte strings of all lengths", "why_tests_cant": "Length-of-length, padding and truncation cases combine without bound; BIP66-style consensus needs the exact set.", "anchors": ["src/ecdsa_impl.h: secp256k1_der_read_len, secp256k1_der_parse_integer, secp256k1_ecdsa_sig_parse", "src/secp256k1.c: secp256k1_ecdsa_signature_parse_der"]}
{"id": "C06", "title": "DER serialization is minimal, reports sizes and round-trips", "statement": "For every signature object with r,s < n, secp256k1_ecdsa_signature_serialize_der into a buffer of at least the required size returns 1, writes strict DER of exactly the reported length (at most 72 bytes), and parsing it yields the same object; into a smaller buffer it returns 0, writes nothing and reports the required size.", "quantifier": "all r,s in [0,n), all buffer sizes", "why_tests_cant": "2^512 signatures times buffer sizes; leading zero and high-bit padding cases are at power-of-two boundaries.", "anchors": ["src/ecdsa_impl.h: secp256k1_ecdsa_sig_serialize", "src/secp256k1.c: secp256k1_ecdsa_signature_serialize_der"]}
{"id": "C07", "title": "Compact signature parsing and serialization", "statement": "secp256k1_ecdsa_signature_parse_compact returns 1 iff both 32-byte big-endian halves are below n, and then serialize_compact gives back the same 64 bytes; otherwise it returns 0 and the object is all zero. serialize_compact followed by parse_compact gives back every signature with r,s < n.", "quantifier": "all 64-byte inputs, all signatures with r,s < n", "why_tests_cant": "The overflow boundary is one value out of 2^256.", "anchors": ["src/secp256k1.c: secp256k1_ecdsa_signature_parse_compact, secp256k1_ecdsa_signature_serialize_compact", "src/scalar_4x64_impl.h: secp256k1_scalar_set_b32"]}
{"id": "C08", "title": "Signature normalization", "statement": "secp256k1_ecdsa_signature_normalize returns 1 iff s > n/2; the output has the same r and s' = s or n-s, whichever is at most n/2; applying it twice changes nothing and returns 0 the second time; input and output may be the same object and the output may be NULL.", "quantifier": "all signatures with r,s < n, aliased and NULL outputs", "why_tests_cant": "Boundary at (n-1)/2 among 2^256 values.", "anchors": ["src/secp256k1.c: secp256k1_ecdsa_signature_normalize", "src/scalar_4x64_impl.h: secp256k1_scalar_is_high"]}
{"id": "C09", "title": "ECDSA verification decides exactly the ECDSA equation with low s", "statement": "For every valid public key Q, 32-byte message and signature object, secp256k1_ecdsa_verify returns 1 iff r,s are in [1,n-1], s <= (n-1)/2, and the point (m/s)G + (r/s)Q is not infinity and its affine x coordinate reduced mod n equals r.", "quantifier": "all public keys, messages and signatures, including x coordinates between n and p and sums that hit infinity or doubling", "why_tests_cant": "Exceptional cases of the addition law and r+n < p have probability about 2^-128 under sampling.", "anchors": ["src/secp256k1.c: secp256k1_ecdsa_verify", "src/ecdsa_impl.h: secp256k1_ecdsa_sig_verify", "src/ecmult_impl.h: secp256k1_ecmult"]}
{"id": "C10", "title": "ECDSA signatures produced verify", "statement": "For every valid secret key, message and nonce function, if secp256k1_ecdsa_sign returns 1 then secp256k1_ecdsa_verify accepts the produced signature for the public key made by secp256k1_ec_pubkey_create from the same secret key, and s is at most (n-1)/2.", "quantifier": "all secret keys in [1,n-1], all 32-byte messages, all nonce functions and data, every context blinding state", "why_tests_cant": "Infinite family of nonce functions; retry paths and high-s negation branch on 256-bit values.", "anchors": ["src/secp256k1.c: secp256k1_ecdsa_sign, secp256k1_ecdsa_sign_inner", "src/ecdsa_impl.h: secp256k1_ecdsa_sig_sign"]}
{"id": "C11", "title": "ECDSA signing fails closed", "statement": "If the secret key is zero or not below n, or the nonce function reports failure before a usable nonce appears, secp256k1_ecdsa_sign returns 0 and the signature object is all zero; it returns 1 only with a valid secret key and a nonce in [1,n-1] that the nonce function produced; nonces out of range are skipped and the attempt counter increases by one each time from 0.", "quantifier": "all 32-byte secret keys, messages, nonce functions (any number of retries)", "why_tests_cant": "Retry behaviour quantifies over all nonce functions and histories of failures.", "anchors": ["src/secp256k1.c: secp256k1_ecdsa_sign_inner, secp256k1_ecdsa_sign"]}
{"id": "C12", "title": "The default nonce function is RFC 6979 with unambiguous inputs", "statement": "nonce_function_rfc6979 returns the (counter+1)-th output of the RFC 6979 HMAC-SHA256 generator seeded with key||(msg mod n)||extra data||algo; for a given pattern of optional arguments two calls with different (key, msg mod n, data, algo) seed the generator with different strings, and different patterns give different seed lengths.", "quantifier": "all keys, messages, optional data and algo strings, all counters", "why_tests_cant": "Injectivity and equality with the standard range over all inputs.", "anchors": ["src/secp256k1.c: nonce_function_rfc6979", "src/hash_impl.h: secp256k1_rfc6979_hmac_sha256_initialize, _generate"]}
{"id": "C13", "title": "Recovery from a recoverable signature returns the signer's key", "statement": "If secp256k1_ecdsa_sign_recoverable returns 1 for secret key d and message m, then secp256k1_ecdsa_recover on that signature and m returns 1 and yields the public key of d.", "quantifier": "all secret keys, messages, nonce functions", "why_tests_cant": "The recid overflow bit is set with probability 2^-128; both y parities and the low-s flip interact.", "anchors": ["src/modules/recovery/main_impl.h: secp256k1_ecdsa_sign_recoverable, secp256k1_ecdsa_sig_recover", "src/ecdsa_impl.h: secp256k1_ecdsa_sig_sign"]}
{"id": "C14", "title": "Recovery is sound", "statement": "If secp256k1_ecdsa_recover returns 1 with key Q for a recoverable signature and message, then (r,s) satisfies the ECDSA verification equation for Q and that message, so after normalization secp256k1_ecdsa_verify accepts it; it fails (returning 0 and zeroing the key) exactly when r or s is 0, the x candidate is not on the curve or too large, or the key would be infinity.", "quantifier": "all recoverable signatures and messages", "why_tests_cant": "Candidates above n and infinity results cannot be sampled.", "anchors": ["src/modules/recovery/main_impl.h: secp256k1_ecdsa_recover, secp256k1_ecdsa_sig_recover"]}
{"id": "C15", "title": "Recoverable signature encoding round-trips", "statement": "parse_compact with recid in 0..3 accepts iff r,s < n and serialize_compact returns the same bytes and recid; convert gives the plain signature with the same r and s; recid outside 0..3 is an illegal argument.", "quantifier": "all 64-byte inputs and all recid integers", "why_tests_cant": "All inputs.", "anchors": ["src/modules/recovery/main_impl.h"]}
{"id": "C16", "title": "Secret key validity and public key derivation", "statement": "secp256k1_ec_seckey_verify returns 1 iff the 32 bytes encode an integer in [1,n-1]; secp256k1_ec_pubkey_create returns 1 exactly for those keys and then stores d*G; otherwise it returns 0 and the key object is all zero. Distinct secret keys give distinct public keys.", "quantifier": "all 32-byte strings, every context blinding state", "why_tests_cant": "2^256 keys, arbitrary blinding history.", "anchors": ["src/secp256k1.c: secp256k1_ec_seckey_verify, secp256k1_ec_pubkey_create", "src/ecmult_gen_impl.h: secp256k1_ecmult_gen"]}
{"id": "C17", "title": "Negation of secret and public keys agrees", "statement": "secp256k1_ec_seckey_negate maps valid d to n-d, returns 1, and its public key is the secp256k1_ec_pubkey_negate of the original public key; applying either twice gives the original; an invalid secret key gives 0 and a zeroed buffer.", "quantifier": "all 32-byte secret keys, all public keys", "why_tests_cant": "All keys.", "anchors": ["src/secp256k1.c: secp256k1_ec_seckey_negate, secp256k1_ec_pubkey_negate"]}
{"id": "C18", "title": "Additive tweaking of secret and public keys agrees", "statement": "For valid d and any 32-byte t: secp256k1_ec_seckey_tweak_add succeeds iff t < n and d+t != 0 mod n and then yields d+t mod n; secp256k1_ec_pubkey_tweak_add on d*G succeeds under the same condition and yields the public key of the tweaked secret key; on failure both outputs are zeroed.", "quantifier": "all secret keys, public keys and tweaks", "why_tests_cant": "The cancelling tweak t = n-d is unique per key.", "anchors": ["src/secp256k1.c: secp256k1_ec_seckey_tweak_add, secp256k1_ec_pubkey_tweak_add", "src/eckey_impl.h: secp256k1_eckey_pubkey_tweak_add"]}
{"id": "C19", "title": "Multiplicative tweaking of secret and public keys agrees", "statement": "secp256k1_ec_seckey_tweak_mul succeeds iff the tweak is in [1,n-1] (for valid d), giving d*t mod n; secp256k1_ec_pubkey_tweak_mul succeeds under the same condition and gives t*Q; the two agree on d*G; on failure outputs are zeroed.", "quantifier": "all keys and tweaks", "why_tests_cant": "All keys.", "anchors": ["src/secp256k1.c: secp256k1_ec_seckey_tweak_mul, secp256k1_ec_pubkey_tweak_mul"]}
{"id": "C20", "title": "Combining public keys is the group sum", "statement": "secp256k1_ec_pubkey_combine on n >= 1 valid keys returns 1 with the sum of the points if the sum is not infinity, and otherwise returns 0 with a zeroed output; the result does not depend on the order of the inputs.", "quantifier": "all lists of valid public keys of any length", "why_tests_cant": "Unbounded lists; intermediate infinities and doublings.", "anchors": ["src/secp256k1.c: secp256k1_ec_pubkey_combine", "src/group_impl.h: secp256k1_gej_add_ge_var"]}
{"id": "C21", "title": "ECDH agreement", "statement": "For valid secret keys a,b with public keys A,B and any hash function, secp256k1_ecdh(B,a) and secp256k1_ecdh(A,b) call the hash function on the same coordinates - those of (ab)G - and return the same output and value.", "quantifier": "all pairs of secret keys, all hash functions", "why_tests_cant": "2^512 pairs; the constant-time multiplication recodes every scalar.", "anchors": ["src/modules/ecdh/main_impl.h: secp256k1_ecdh", "src/ecmult_const_impl.h: secp256k1_ecmult_const"]}
{"id": "C22", "title": "ECDH rejects invalid secret keys", "statement": "secp256k1_ecdh returns 0 whenever the scalar is zero or not below n, and otherwise returns whether the hash function returned nonzero.", "quantifier": "all 32-byte scalars, all hash functions", "why_tests_cant": "All inputs.", "anchors": ["src/modules/ecdh/main_impl.h: secp256k1_ecdh"]}
{"id": "C23", "title": "Schnorr verification decides exactly BIP-340", "statement": "secp256k1_schnorrsig_verify returns 1 iff r < p, s < n and R = sG - eP (P the even-y point with the given x, e the tagged challenge hash mod n) is not infinity, has even y and x(R) = r.", "quantifier": "all 64-byte signatures, messages of every length, all x-only keys", "why_tests_cant": "Unbounded messages, exceptional group cases.", "anchors": ["src/modules/schnorrsig/main_impl.h: secp256k1_schnorrsig_verify"]}
{"id": "C24", "title": "Schnorr signatures produced verify", "statement": "If secp256k1_schnorrsig_sign32 or sign_custom returns 1 for a keypair then secp256k1_schnorrsig_verify accepts the signature for the x-only public key of the keypair.", "quantifier": "all keypairs made by keypair_create, all message lengths, all aux data and nonce functions", "why_tests_cant": "Unbounded messages and nonce functions.", "anchors": ["src/modules/schnorrsig/main_impl.h: secp256k1_schnorrsig_sign_internal"]}
{"id": "C25", "title": "Schnorr signing fails closed", "statement": "secp256k1_schnorrsig_sign_custom returns 0 with an all-zero signature when the keypair is invalid, the nonce function fails or returns 0 mod n; extraparams with a wrong magic are an illegal argument.", "quantifier": "all keypair objects, messages, nonce functions", "why_tests_cant": "All inputs.", "anchors": ["src/modules/schnorrsig/main_impl.h: secp256k1_schnorrsig_sign_internal"]}
{"id": "C26", "title": "X-only public keys", "statement": "secp256k1_xonly_pubkey_parse accepts exactly the 32-byte encodings x < p of curve x coordinates and stores the point with even y; serialize returns the same bytes; xonly_pubkey_from_pubkey keeps x and reports the parity of y, so (x, parity) determines the key; cmp is lexicographic.", "quantifier": "all 32-byte strings, all public keys", "why_tests_cant": "All inputs.", "anchors": ["src/modules/extrakeys/main_impl.h: secp256k1_xonly_pubkey_parse, _serialize, _from_pubkey, _cmp"]}
{"id": "C27", "title": "Taproot-style tweak commitments", "statement": "secp256k1_xonly_pubkey_tweak_add returns P + tG for the even-y point P (failing iff t >= n or the sum is infinity), and secp256k1_xonly_pubkey_tweak_add_check(x, parity, P, t) returns 1 iff t < n and P + tG is a finite point with that x coordinate and parity.", "quantifier": "all x-only keys, tweaks, claimed outputs", "why_tests_cant": "A false acceptance anywhere would let outputs be spent.", "anchors": ["src/modules/extrakeys/main_impl.h: secp256k1_xonly_pubkey_tweak_add, secp256k1_xonly_pubkey_tweak_add_check"]}
{"id": "C28", "title": "Keypairs stay consistent under every operation", "statement": "After secp256k1_keypair_create and any sequence of successful secp256k1_keypair_xonly_tweak_add calls, the secret key returned by keypair_sec is valid, the public key returned by keypair_pub is its public key, and each tweak acts on the x-only public key exactly as xonly_pubkey_tweak_add; a failed call leaves an all-zero keypair.", "quantifier": "all secret keys and all finite sequences of tweaks", "why_tests_cant": "Unbounded histories.", "anchors": ["src/modules/extrakeys/main_impl.h: secp256k1_keypair_create, secp256k1_keypair_xonly_tweak_add"]}
{"id": "C29", "title": "MuSig key aggregation is the BIP-327 sum", "statement": "secp256k1_musig_pubkey_agg on n >= 1 keys whose aggregate is not the point at infinity (the code does not test for that case) gives the x-only key of sum a_i P_i with a_i = tagged hash of (key list hash || P_i), except a_i = 1 for keys equal to the second distinct key; later plain and x-only tweaks yield g(Q)+tG as in BIP-327 for any sequence of tweaks.", "quantifier": "all lists of public keys, all finite tweak sequences", "why_tests_cant": "Unbounded lists and histories.", "anchors": ["src/modules/musig/keyagg_impl.h"]}
{"id": "C30", "title": "MuSig partial signatures verify", "statement": "A partial signature returned by secp256k1_musig_partial_sign with a secnonce, keypair, key aggregation cache and session is accepted by secp256k1_musig_partial_sig_verify for the matching public nonce and public key in that session; an accepted value satisfies s_i G = R_i + e a_i g P_i.", "quantifier": "all signers, nonces, caches (with any tweaks), sessions", "why_tests_cant": "Combines four parity flips over all group elements.", "anchors": ["src/modules/musig/session_impl.h: secp256k1_musig_partial_sign, secp256k1_musig_partial_sig_verify"]}
{"id": "C31", "title": "MuSig aggregate signatures verify as BIP-340 signatures", "statement": "If every signer of an aggregated key (with any sequence of tweaks) contributes the partial signature made from its secret nonce in the session of the aggregated nonce, then secp256k1_musig_partial_sig_agg returns a signature that secp256k1_schnorrsig_verify accepts for the aggregate x-only key, unless the final nonce R1 + b R2 is the point at infinity (then BIP-327 substitutes G, and the aggregate signature does not verify).", "quantifier": "any number of signers, any keys including duplicates, any tweak sequence, any message", "why_tests_cant": "Unbounded number of signers and tweaks.", "anchors": ["src/modules/musig/session_impl.h: secp256k1_musig_partial_sig_agg, secp256k1_musig_nonce_process"]}
{"id": "C32", "title": "A MuSig secret nonce signs at most once", "statement": "In every sequence of calls, between two fillings of a secnonce object by a nonce generation call at most one secp256k1_musig_partial_sign returns 1 with it: every such call on a live secnonce, successful or not past the magic check, leaves it zeroed and a zeroed secnonce is rejected.", "quantifier": "all finite sequences of API calls on all objects", "why_tests_cant": "Histories are unbounded; reuse leaks the key.", "anchors": ["src/modules/musig/session_impl.h: secp256k1_musig_partial_sign, secp256k1_musig_secnonce_load"]}
{"id": "C33", "title": "MuSig nonce generation protects its randomness", "statement": "secp256k1_musig_nonce_gen fails and produces an unusable secnonce when the session randomness is all zero or the secret key invalid, zeroes the session randomness on success, and nonce_gen_counter with distinct counters feeds distinct inputs to the hash that masks the key, hence distinct inputs to the nonce hash unless that hash collides.", "quantifier": "all inputs and optional arguments", "why_tests_cant": "All inputs.", "anchors": ["src/modules/musig/session_impl.h: secp256k1_musig_nonce_gen_internal, secp256k1_musig_nonce_gen_counter, secp256k1_nonce_function_musig"]}
{"id": "C34", "title": "MuSig wire objects round-trip", "statement": "Parsing a serialized public nonce, aggregate nonce or partial signature returns 1 and the same object; parse accepts exactly two valid points (aggregate nonces also allow the 33-zero-byte infinity), or a scalar below n; objects of the wrong kind are illegal arguments.", "quantifier": "all objects and byte strings", "why_tests_cant": "All inputs.", "anchors": ["src/modules/musig/session_impl.h: *_parse, *_serialize, *_save, *_load"]}
{"id": "C35", "title": "MuSig nonce aggregation is the component-wise sum", "statement": "secp256k1_musig_nonce_agg returns the two component sums of the public nonces, independent of order, allowing infinity.", "quantifier": "all non-empty lists of public nonces", "why_tests_cant": "Unbounded lists.", "anchors": ["src/modules/musig/session_impl.h: secp256k1_musig_nonce_agg"]}
{"id": "C36", "title": "SHA-256 streaming equals FIPS 180-4 for every split of the input", "statement": "Initializing, writing any sequence of chunks and finalizing gives the FIPS 180-4 SHA-256 of the concatenation; in particular the result does not depend on the split. secp256k1_tagged_sha256 returns SHA256(SHA256(tag)||SHA256(tag)||msg).", "quantifier": "all chunk sequences with total length below 2^61 bytes, all tags and messages", "why_tests_cant": "Unbounded lengths and splits.", "anchors": ["src/hash_impl.h: secp256k1_sha256_write, secp256k1_sha256_finalize, secp256k1_sha256_transform", "src/secp256k1.c: secp256k1_tagged_sha256"]}
{"id": "C37", "title": "HMAC-SHA256 and the RFC 6979 generator follow their standards", "statement": "The HMAC object returns HMAC-SHA256 of the concatenated writes for every key length, and the generator's outputs follow RFC 6979 section 3.2 for every seed and number of calls.", "quantifier": "all keys, messages, seeds, output lengths, numbers of calls", "why_tests_cant": "Unbounded.", "anchors": ["src/hash_impl.h: secp256k1_hmac_sha256_*, secp256k1_rfc6979_hmac_sha256_*"]}
{"id": "C38", "title": "Context randomization never changes results", "statement": "After secp256k1_context_create and any sequence of secp256k1_context_randomize calls with any seeds (or NULL), every public key, signature and verification result is the same as for a fresh context.", "quantifier": "all finite sequences of seeds, all scalars", "why_tests_cant": "Histories of seeds are unbounded and blinding is 256-bit.", "anchors": ["src/secp256k1.c: secp256k1_context_randomize", "src/ecmult_gen_impl.h: secp256k1_ecmult_gen_blind, secp256k1_ecmult_gen"]}
{"id": "C39", "title": "Context lifecycle rules", "statement": "A context created, cloned, or placed in caller memory of the reported size supports all operations; the static context rejects operations that need signing tables, randomization, and changes of callbacks through the illegal callback, and a clone behaves like its source.", "quantifier": "all finite sequences of context operations", "why_tests_cant": "Histories.", "anchors": ["src/secp256k1.c: secp256k1_context_create, _clone, _destroy, _set_illegal_callback, _randomize"]}
{"id": "C40", "title": "Illegal arguments are reported and fail safe", "statement": "For every API function and every combination of arguments: if a required pointer is NULL, an object passed in holds no key, keypair, nonce or session (its x coordinate is zero, its secret key is out of range, or its magic bytes are wrong), or another documented precondition checked by the API fails, the function calls the illegal-argument callback exactly once, returns 0, and leaves every output byte either untouched or zero; if none of these holds, the callback is not called. The exceptions, stated as theorems of their own: the comparison and sorting functions have no failure value and call the callback once per unreadable key they look at; secp256k1_ec_pubkey_combine and secp256k1_ecdh call the callback for a key object without a key but go on and may return 1; secp256k1_context_create with bad flags calls the default callback twice; secp256k1_context_destroy and the callback setters return nothing.", "quantifier": "all API functions modelled, all argument combinations, all contents of the objects passed in", "why_tests_cant": "Combinations of NULLs and objects.", "anchors": ["src/secp256k1.c: ARG_CHECK, ARG_CHECK_VOID and all exported functions"]}
{"id": "C41", "title": "Group operations are complete", "statement": "Point addition and doubling as used by every operation return the group sum for all inputs: infinity, equal points, opposite points, and representatives with any projective scaling.", "quantifier": "all pairs of points and all Jacobian representatives", "why_tests_cant": "Exceptional cases are unreachable by random testing.", "anchors": ["src/group_impl.h: secp256k1_gej_add_var, secp256k1_gej_add_ge_var, secp256k1_gej_add_ge, secp256k1_gej_add_zinv_var, secp256k1_gej_double"]}
{"id": "C42", "title": "Verification multiplication is correct for all inputs", "statement": "The combination aP + bG used in verification and tweaking equals the group-theoretic value for every a, b in [0,n) and every P including infinity.", "quantifier": "all scalars and points", "why_tests_cant": "Windowed recoding and table lookups on 256-bit scalars.", "anchors": ["src/ecmult_impl.h: secp256k1_ecmult_strauss_wnaf, secp256k1_ecmult_wnaf, secp256k1_ecmult_odd_multiples_table"]}
{"id": "C43", "title": "Secret multiplication is correct for all inputs", "statement": "The constant-time multiplication used by ECDH and ElligatorSwift key exchange returns qP for every q in [0,n) and every P including infinity.", "quantifier": "all scalars and points", "why_tests_cant": "Signed-digit recoding, endomorphism split bounds.", "anchors": ["src/ecmult_const_impl.h: secp256k1_ecmult_const, secp256k1_ecmult_const_xonly"]}
{"id": "C44", "title": "Scalar arithmetic is exact modulo the group order", "statement": "Addition, multiplication, negation, halving, reduction, comparison, byte conversion and the endomorphism split of scalars computed on 64-bit limbs equal the integer operations modulo n for every input, with every output below n, and no carry is lost; the split halves stay below 2^128 in absolute value.", "quantifier": "all limb values", "why_tests_cant": "Carry chains fail on inputs with density 2^-64.", "anchors": ["src/scalar_4x64_impl.h", "src/scalar_impl.h: secp256k1_scalar_split_lambda"]}
{"id": "C45", "title": "Field arithmetic is exact modulo p", "statement": "Multiplication, squaring, addition, negation, halving, normalization, comparison and byte conversion of field elements on 52-bit limbs equal the operations modulo p for all inputs within the documented magnitudes, output magnitudes are as documented and no intermediate 64- or 128-bit value overflows.", "quantifier": "all limb values within the magnitude bounds", "why_tests_cant": "Overflow and final-subtraction cases have density 2^-200.", "anchors": ["src/field_5x52_impl.h", "src/field_5x52_int128_impl.h", "src/field_impl.h"]}
{"id": "C46", "title": "Modular inversion is exact", "statement": "The safegcd inversion of field elements and scalars returns the inverse of every nonzero input and 0 for 0.", "quantifier": "all inputs", "why_tests_cant": "The number of division steps needed by the worst input cannot be found by testing.", "anchors": ["src/modinv64_impl.h"]}
{"id": "C47", "title": "Every accepted public key has order n", "statement": "The curve has exactly n points (including infinity) and n is prime, so every accepted public key generates the whole group; no accepted key has small order and y is never 0.", "quantifier": "all public keys", "why_tests_cant": "Statement about all 2^256 points.", "anchors": ["src/group_impl.h", "include/secp256k1.h"]}
{"id": "C48", "title": "ElligatorSwift decoding is total", "statement": "secp256k1_ellswift_decode returns 1 and a valid public key for every 64-byte string, following the XSwiftEC map.", "quantifier": "all 64-byte strings", "why_tests_cant": "Exceptional (u,t) pairs are rare.", "anchors": ["src/modules/ellswift/main_impl.h: secp256k1_ellswift_decode, secp256k1_ellswift_xswiftec_frac_var"]}
{"id": "C49", "title": "ElligatorSwift encodings decode to the encoded key", "statement": "If secp256k1_ellswift_encode or secp256k1_ellswift_create returns 1 and the first 32 bytes of the produced encoding are not a multiple of the field prime, secp256k1_ellswift_decode of the produced 64 bytes is the encoded public key, resp. the public key of the secret key. Invalid keys give 0 and an all-zero encoding.", "quantifier": "all public keys, secret keys and randomness (on every run in which the search terminates)", "why_tests_cant": "All keys and all randomness; the inverse map has eight branches.", "anchors": ["src/modules/ellswift/main_impl.h: secp256k1_ellswift_xswiftec_inv_var, secp256k1_ellswift_elligatorswift_var"]}
{"id": "C50", "title": "ElligatorSwift key exchange agrees", "statement": "For encodings of public keys of a and b, both parties of secp256k1_ellswift_xdh hash the same x coordinate - that of (ab)G - and return the same secret.", "quantifier": "all valid secret keys, all encodings decoding to their keys, all hash functions", "why_tests_cant": "x-only fraction arithmetic without square roots.", "anchors": ["src/modules/ellswift/main_impl.h: secp256k1_ellswift_xdh", "src/ecmult_const_impl.h: secp256k1_ecmult_const_xonly"]}
{"id": "C51", "title": "ElligatorSwift key exchange rejects invalid secret keys", "statement": "secp256k1_ellswift_xdh returns 0 when the 32-byte secret key is zero or not below n, as its documentation says ('0: secret was invalid').", "quantifier": "all 32-byte strings", "why_tests_cant": "Values above n have density 2^-128.", "anchors": ["src/modules/ellswift/main_impl.h: secp256k1_ellswift_xdh", "include/secp256k1_ellswift.h"]}
{"id": "C52", "title": "Signature malleability is excluded by verification", "statement": "For every key and message, if (r,s) is accepted by secp256k1_ecdsa_verify then (r,n-s) is not; and the normalized form of any (r,s) satisfying the ECDSA equation is accepted.", "quantifier": "all keys, messages and signatures", "why_tests_cant": "All inputs.", "anchors": ["src/secp256k1.c: secp256k1_ecdsa_verify, secp256k1_ecdsa_signature_normalize"]}
{"id": "C53", "title": "Multi-point multiplication is correct for every batch", "statement": "The batched multi-scalar multiplication returns sum a_i P_i + gG for any number of points, any scratch space size (including none) and any choice of algorithm made from it, and leaves the scratch space as it found it.", "quantifier": "all lists of scalars and points, all scratch sizes", "why_tests_cant": "Batch boundaries and algorithm thresholds.", "anchors": ["src/ecmult_impl.h: secp256k1_ecmult_multi_var, secp256k1_ecmult_pippenger_wnaf, secp256k1_wnaf_fixed"]}
{"id": "C54", "title": "Scratch allocations never overlap or overrun", "statement": "For every sequence of allocations and checkpoint restores, live allocations from a scratch space are aligned, pairwise disjoint and inside the space; exhausted space or size overflow yields NULL, never a wrapped size. The space announced by max_allocation for a number of objects can always be allocated.", "quantifier": "all finite sequences of allocations (any size up to SIZE_MAX), checkpoints, restores of fresh or stale checkpoints and writes, on every created space whose header and size do not wrap around (see C57 for the rest)", "why_tests_cant": "Unbounded histories, wrap-around.", "anchors": ["src/scratch_impl.h"]}
{"id": "C55", "title": "Opaque objects hold what was stored", "statement": "Every public key, x-only key, keypair, signature or recoverable signature object that a history of successful API calls (any of the functions that write such an object, with any arguments) leaves behind holds a valid value of its kind; reading the object returns exactly that value, and different values are stored differently. The all-zero object left by failing calls is never the result of a successful call for a key or keypair; every function that uses the value refuses it with the illegal-argument callback or a 0 result. Exceptions, stated as theorems: comparison, combination and ECDH report it but go on, and functions that only copy (serializing a signature, extracting the parts of a keypair) pass zeros on.", "quantifier": "all histories of API calls, all values, all other arguments", "why_tests_cant": "All values.", "anchors": ["src/secp256k1.c: secp256k1_pubkey_load, secp256k1_pubkey_save, secp256k1_ecdsa_signature_load, _save", "src/modules/extrakeys/main_impl.h: secp256k1_keypair_load"]}
{"id": "C56", "title": "Default Schnorr signing is the BIP-340 algorithm", "statement": "secp256k1_schnorrsig_sign32 returns exactly the signature of the default signing algorithm of BIP-340 for the secret key of the keypair, the message and the auxiliary data; a NULL aux_rand32 means 32 zero bytes; secp256k1_nonce_function_bip340 computes the tagged hash of masked key, public key and message for every algorithm name.", "quantifier": "all keypairs, 32-byte messages, auxiliary data, algorithm names and messages of every length for the nonce function", "why_tests_cant": "The test vectors of the BIP fix a few keys; precomputed hash states and sign handling must be right for all.", "anchors": ["src/modules/schnorrsig/main_impl.h: nonce_function_bip340, secp256k1_schnorrsig_sign_internal", "include/secp256k1_schnorrsig.h"]}
{"id": "C57", "title": "A created scratch space has the requested number of bytes", "statement": "Whenever creation of a scratch space returns a non-NULL object, the object owns as many bytes as were requested, so that allocations it accepts stay inside the heap block.", "quantifier": "all requested sizes up to SIZE_MAX and all alignments", "why_tests_cant": "The failure is at sizes close to SIZE_MAX, where the header is added; no test asks for such a size.", "anchors": ["src/scratch_impl.h: secp256k1_scratch_create", "src/secp256k1.c: secp256k1_scratch_space_create"]}
{"id": "C58", "title": "Point arithmetic on machine words never overflows", "statement": "The point operations, run on the 52-bit limbs with 64- and 128-bit machine arithmetic, return coordinates within the documented magnitude bounds that represent the group-theoretic result, so that every sequence of point operations, however long, computes the right point.", "quantifier": "all limb values within the documented bounds and all finite programs of point operations", "why_tests_cant": "Overflow of an unreduced limb needs extreme limb values that depend on the history of the value.", "anchors": ["src/group_impl.h", "src/group.h: SECP256K1_GEJ_X_MAGNITUDE_MAX", "src/field_5x52_impl.h"]}
{"id": "C59", "title": "The test whether an x-coordinate is on the curve is exact", "statement": "Wherever the library decides whether a field element is a square (decoding and encoding ElligatorSwift keys, x-only key exchange), the answer is exactly whether the element is a square modulo p: the fast Jacobi-symbol algorithm, which may give up after a fixed number of rounds, never gives a wrong answer, never overflows, and the fallback covers the rest.", "quantifier": "all field elements, in all limb representations within the documented magnitude; for the Jacobi symbol all odd moduli in [3, 2^256] and all residues", "why_tests_cant": "The algorithm is a heuristic with an early exit; a wrong sign for one of 2^256 inputs, or an overflow after an unlucky sequence of steps, would be missed by random tests.", "anchors": ["src/modinv64_impl.h: secp256k1_jacobi64_maybe_var, secp256k1_modinv64_posdivsteps_62_var", "src/field_5x52_impl.h: secp256k1_fe_impl_is_square_var", "src/group_impl.h: secp256k1_ge_x_on_curve_var"]}
{"id": "C60", "title": "Builds without native 128-bit integers compute the same", "statement": "On compilers without a 128-bit integer type the library emulates it by pairs of 64-bit words. Every emulated operation (products, accumulation, differences, shifts, conversions, comparisons) gives exactly the number the native type gives, whenever the native operation is defined, and itself has no signed overflow; so results do not depend on the compiler.", "quantifier": "all 64-bit operands and all 128-bit accumulators, all shift amounts below 128", "why_tests_cant": "Carries and borrows between the words depend on rare combinations of extreme operands.", "anchors": ["src/int128_struct_impl.h", "src/int128_native_impl.h"]}
{"id": "C61", "title": "Builds without a bit-count builtin compute the same", "statement": "The portable count of trailing zero bits, used by variable-time inversion where the compiler has no builtin, reads only inside its table and is exact for every non-zero word.", "quantifier": "all non-zero 32-bit and 64-bit words", "why_tests_cant": "2^64 words cannot be enumerated; the argument rests on the multiplier being a de Bruijn number.", "anchors": ["src/util.h: secp256k1_ctz32_var_debruijn, secp256k1_ctz64_var_debruijn"]}
{"id": "C62", "title": "Secrets do not influence branches, memory addresses or variable-time code", "statement": "For every function that takes a secret (keys, nonces, session randomness, context blinding), two executions that differ only in the secrets take the same branches, access the same memory positions and call variable-time functions with the same arguments. For verification of secret keys, key creation, negation, tweaking, context randomization and both key exchanges this holds without exception, even for invalid keys. For ECDSA and Schnorr signing, keypair tweaking, ElligatorSwift creation and MuSig it holds whenever the values that the library explicitly declassifies are the same; ECDSA declassifies only one bit per decision, so that two signatures made with the first nonce are indistinguishable, and Schnorr signing declassifies only the public key, that the key is valid, and the point R of the signature.", "quantifier": "all pairs of secret keys, messages, seeds, nonces, auxiliary data and context blindings of equal length, and all constant-time nonce and hash callbacks", "why_tests_cant": "It compares all pairs of executions; a valgrind run follows one execution path and a timing test samples a few keys.", "anchors": ["src/secp256k1.c: secp256k1_declassify, secp256k1_ecdsa_sign_inner, secp256k1_ec_pubkey_create", "src/ecmult_gen_impl.h: secp256k1_ecmult_gen", "src/ecmult_const_impl.h: secp256k1_ecmult_const", "src/modules/schnorrsig/main_impl.h: secp256k1_schnorrsig_sign_internal", "src/modules/musig/session_impl.h", "src/modules/ellswift/main_impl.h: secp256k1_ellswift_create", "src/ctime_tests.c"]}
{"id": "C63", "title": "ElligatorSwift encoding reaches every encoding, each by exactly one case", "statement": "The inverse map behind ElligatorSwift encoding is XSwiftECInv of BIP-324. For every pair (u, t) that decodes without replacement, exactly one of its eight cases leads from the decoded x coordinate back to t, so that for each u the number of cases with an answer is the number of encodings, and encoding with uniform randomness is uniform. Encoding a key returns what the first successful iteration of the specified search finds, with cases and field elements drawn from the specified hash of the key, the randomness and a counter; creation from a secret key does the same with its own seed, regardless of the context's blinding.", "quantifier": "all field elements u and t, all x coordinates on the curve, all eight cases, all public keys, secret keys and randomness, all numbers of iterations", "why_tests_cant": "Test vectors cover a few encodings; completeness and uniqueness over all pairs of field elements is an algebraic fact.", "anchors": ["src/modules/ellswift/main_impl.h: secp256k1_ellswift_xswiftec_inv_var, secp256k1_ellswift_prng, secp256k1_ellswift_xelligatorswift_var, secp256k1_ellswift_elligatorswift_var, secp256k1_ellswift_encode, secp256k1_ellswift_create"]}
{"id": "C64", "title": "Field arithmetic on 32-bit targets is exact modulo p", "statement": "On targets without 128-bit integers, multiplication, squaring, addition, negation, multiplication by and addition of small integers, halving, normalization, zero tests, comparison, conditional moves and conversion from and to bytes and storage equal the operations modulo p for all inputs within the documented magnitudes, output magnitudes are as documented, normalized representations are unique and no 32- or 64-bit intermediate value wraps around. Normalization and zero tests are exact for every element of magnitude up to 31 and for every element that any sequence of field operations can build within the limits on magnitudes.", "quantifier": "all limb values within the magnitude bounds; all sequences of field operations", "why_tests_cant": "Overflow and final-subtraction cases have density 2^-200, and most builds and test runs use the 64-bit code.", "anchors": ["src/field_10x26_impl.h", "src/field_10x26.h", "src/field.h", "src/field_impl.h"]}
{"id": "C65", "title": "Scalar arithmetic on 32-bit targets is exact modulo n and agrees with the 64-bit code", "statement": "On targets without 128-bit integers, addition, multiplication, negation, halving, conditional addition of a power of two, parsing with overflow detection, serialization, comparison, bit extraction, the rounded product shift, the splits into halves and along the endomorphism and conditional moves equal the operations modulo n for all inputs, every result is fully reduced, and any sequence of operations gives the same numbers and the same encodings as the 64-bit code.", "quantifier": "all 256-bit inputs (reduced or not where allowed); all sequences of operations", "why_tests_cant": "Carries and final subtractions that matter occur with probability around 2^-128, and most builds and test runs use the 64-bit code.", "anchors": ["src/scalar_8x32_impl.h", "src/scalar_8x32.h", "src/scalar_impl.h", "src/scalar.h"]}
{"id": "C66", "title": "Inversion and the square test on 32-bit targets are exact and always end", "statement": "On targets without 128-bit integers, inverting any field element or scalar, in constant or in variable time, returns without undefined behaviour, gives the inverse modulo p or n (0 for 0), and both variants give the same result; the variable-time loop ends within 25 rounds. The test whether a field element is a square is exact. The underlying routines are correct for every odd modulus up to 2^256 and every coprime input.", "quantifier": "all field elements and scalars; all admissible moduli and residues; all numbers of loop iterations", "why_tests_cant": "The number of division steps needed and the absence of signed overflow are bounds over all 2^256 inputs, and most builds and test runs use the 64-bit code.", "anchors": ["src/modinv32_impl.h", "src/modinv32.h", "src/field_10x26_impl.h: secp256k1_fe_impl_inv, secp256k1_fe_impl_inv_var, secp256k1_fe_impl_is_square_var", "src/scalar_8x32_impl.h: secp256k1_scalar_inverse, secp256k1_scalar_inverse_var"]}
{"id": "C67", "title": "Point arithmetic on 32-bit targets computes the group law without overflow", "statement": "On targets without 128-bit integers, doubling, addition in all its variants, negation, rescaling, conditional moves, comparison, validity test and conversion to affine coordinates compute the group law for all points including infinity, equal and opposite arguments; their results obey the documented magnitudes again, so that no sequence of operations of any length overflows.", "quantifier": "all points in all representations within the documented magnitudes; all programs of point operations", "why_tests_cant": "Limb overflow needs particular limb patterns that no finite test enumerates, and sequences of operations are unbounded; most test runs use the 64-bit code.", "anchors": ["src/group_impl.h", "src/group.h", "src/field_10x26_impl.h"]}
{"id": "C68", "title": "Scalar multiplication on machine words computes the multiple without overflow, with either field implementation", "statement": "Variable-time, constant-time and generator multiplication, run on the words that field elements are stored in (52-bit limbs on 64-bit targets, 26-bit limbs on 32-bit targets) with wrapping machine arithmetic, return for every point in every representation within the documented magnitudes and for all scalars a representation, again within the magnitudes, of the exact multiple. Generator multiplication does so for every blinding of the context and for all three shipped table sizes.", "quantifier": "all points, all their representations within the documented magnitudes, all scalars, any number of points, all blindings in any number", "why_tests_cant": "An overflow in the thousands of limb operations of one multiplication can need a particular combination of point representation, scalar and blinding; the two field implementations are never both run by one build.", "anchors": ["src/ecmult_impl.h", "src/ecmult_const_impl.h", "src/ecmult_gen_impl.h", "src/precomputed_ecmult.c", "src/precomputed_ecmult_gen.c", "src/field_5x52.h: SECP256K1_FE_CONST_INNER, SECP256K1_FE_STORAGE_CONST", "src/field_10x26.h: SECP256K1_FE_CONST_INNER, SECP256K1_FE_STORAGE_CONST"]}
{"id": "C69", "title": "The API gives the same results on machine words, with either field implementation", "statement": "Parsing, serializing, comparing, negating, tweaking, combining and creating public keys, ECDSA signing, recoverable signing, verification and recovery, ECDH, x-only keys, key pairs, and Schnorr signing and verification, run with field elements in 52-bit limbs or in 26-bit limbs (wrapping machine arithmetic, the inversion and square-test code of each build, coordinates read from and written to memory word by word), return the value, make the callback calls and write the bytes that the mathematical definitions prescribe, so a 64-bit and a 32-bit build cannot be told apart by their results, and what one signs the other verifies. Key objects are any that the API wrote.", "quantifier": "all inputs, all key objects written by the API, all contexts with any history of randomization, all nonce functions and hash functions", "why_tests_cant": "A coordinate that is read without having been normalized gives a wrong byte or parity only for the few inputs whose limbs are not canonical at that point; tests hit such inputs with negligible probability, and one build never runs both field implementations.", "anchors": ["src/secp256k1.c", "src/eckey_impl.h", "src/ecdsa_impl.h", "src/group_impl.h: secp256k1_ge_set_xo_var, secp256k1_ge_to_bytes, secp256k1_ge_from_bytes", "src/modules/recovery/main_impl.h", "src/modules/ecdh/main_impl.h", "src/modules/extrakeys/main_impl.h", "src/modules/schnorrsig/main_impl.h"]}
{"id": "C70", "title": "MuSig gives the same results on machine words, with either field implementation", "statement": "Key aggregation and its tweaks, parsing and serializing nonces, nonce generation, nonce aggregation, nonce processing, partial signing and partial verification, run with field elements in 52-bit limbs or in 26-bit limbs (wrapping machine arithmetic, batched inversion, coordinates read from and written to memory word by word), return the value, make the callback calls and write the bytes that the same functions give over the integers modulo p. So BIP-327 aggregation, partial verification and whole signing sessions hold on machine words, also when the participants run different builds.", "quantifier": "all arguments including NULL pointers and invalid objects, all live contexts; key aggregation caches and key pairs whose stored coordinates are below p, which all objects written by the API are", "why_tests_cant": "a missing normalization or an overflowing limb shows only for rare coordinate values, and sessions mix participants with different builds", "anchors": ["src/modules/musig/keyagg_impl.h: secp256k1_musig_pubkey_agg, secp256k1_musig_pubkey_tweak_add_internal", "src/modules/musig/session_impl.h: secp256k1_musig_nonce_gen, secp256k1_musig_nonce_process, secp256k1_musig_partial_sign, secp256k1_musig_partial_sig_verify", "src/group_impl.h: secp256k1_ge_set_all_gej, secp256k1_ge_set_all_gej_var, secp256k1_ge_to_bytes_ext", "src/field_5x52_impl.h", "src/field_10x26_impl.h"]}
{"id": "C71", "title": "ElligatorSwift gives the same results on machine words, with either field implementation", "statement": "Encoding a public key, making an encoding from a secret key, decoding and the key exchange, run with field elements in 52-bit limbs or in 26-bit limbs (wrapping machine arithmetic, constant-time or variable-time inversion, the square test), return the value, make the callback calls and write the bytes that the same functions give over the integers modulo p. So every 64-byte string decodes to the point that BIP-324 specifies, encodings decode to the key, and two parties whose libraries are compiled with different field implementations agree on the shared secret.", "quantifier": "all arguments including NULL pointers and invalid objects, all 64-byte encodings, all live contexts, all hash functions", "why_tests_cant": "a value that is over magnitude or not normalized shows only for rare field elements, and the branch taken depends on square tests of random elements", "anchors": ["src/modules/ellswift/main_impl.h: secp256k1_ellswift_encode, secp256k1_ellswift_create, secp256k1_ellswift_decode, secp256k1_ellswift_xdh, secp256k1_ellswift_xswiftec_inv_var", "src/group_impl.h: secp256k1_ge_x_on_curve_var, secp256k1_ge_x_frac_on_curve_var", "src/ecmult_const_impl.h: secp256k1_ecmult_const_xonly", "src/field_5x52_impl.h", "src/field_10x26_impl.h"]}
{"id": "C72", "title": "The assembly code for x86_64 multiplies scalars exactly as the C code does", "statement": "In a build with the x86_64 assembly, multiplying two scalars, reducing a 512-bit number modulo the group order and the rounded shift of a product give the same words as the C code, and so the exact product modulo the group order, for every choice of registers and memory places that the operand constraints leave to the compiler and whatever the registers, flags and memory held before.", "quantifier": "all pairs of four-word numbers, all 512-bit numbers, all placements of operands that the constraints allow, all initial contents of registers, carry flag and memory, all positions of the arrays that do not overlap the result", "why_tests_cant": "tests run one placement that one compiler chose, and a dropped carry in a multi-word multiplication shows for about one product in 2^64", "anchors": ["src/scalar_4x64_impl.h: secp256k1_scalar_mul_512, secp256k1_scalar_reduce_512, secp256k1_scalar_mul, secp256k1_scalar_mul_shift_var"]}
{"id": "C73", "title": "The ARM assembly multiplies and squares field elements exactly as the C code does", "statement": "In a build with the ARM assembly, a call of the field multiplication or squaring with arguments of magnitude at most 8 writes the limbs that the C code computes, and so the exact product modulo p, to the result, also when the result overlaps the arguments; it returns to the caller with the stack pointer and callee-saved registers restored and changes no memory besides the result and its stack frame.", "quantifier": "all limbs within the magnitude bound, all positions and overlaps of the three arrays outside the stack frame, all contents of other registers, flags and memory", "why_tests_cant": "the code keeps interleaved 64-bit accumulators in register pairs, and a lost carry shows for a fraction of the inputs that random tests are unlikely to meet; tests of aliasing and of saved registers see only the cases they try", "anchors": ["src/asm/field_10x26_arm.s: secp256k1_fe_mul_inner, secp256k1_fe_sqr_inner", "src/field_10x26_impl.h: secp256k1_fe_mul_inner, secp256k1_fe_sqr_inner"]}
{"id": "C74", "title": "The API of a build with the ARM assembly does what the other builds do", "statement": "In a 32-bit build whose field multiplications and squarings are the ARM assembly, every API function on keys, ECDSA, recovery, ECDH, x-only keys, key pairs, Schnorr signatures, MuSig and ElligatorSwift returns the same value, calls the callbacks as often and writes the same bytes as in the other builds, wherever the compiled callers place the operands; so it accepts exactly the valid signatures and what it signs verifies.", "quantifier": "all inputs of the API functions, all live contexts, all placements of operands, stack and other memory at the calls of the assembly", "why_tests_cant": "the assembly runs thousands of times in every call, and a wrong limb for a rare operand, or a caller that exceeds the bound that the assembly needs, shows only for inputs that tests do not meet", "anchors": ["src/asm/field_10x26_arm.s: secp256k1_fe_mul_inner, secp256k1_fe_sqr_inner", "src/field_10x26_impl.h: secp256k1_fe_impl_mul, secp256k1_fe_impl_sqr, secp256k1_fe_impl_is_square_var", "src/secp256k1.c", "include/secp256k1.h"]}
{"id": "C75", "title": "The table generators compute the right tables, for every build configuration", "statement": "For every window size and every comb configuration that the headers accept and every base point of the curve, the programs that generate the static tables compute the odd multiples of the base point and of 2^128 times it, and the comb entries that the generator multiplication expects; with the shipped parameters they give exactly the arrays in the repository; and a library built with the tables for any accepted configuration makes the right public keys and computes na*A + ng*G correctly.", "quantifier": "all window sizes (2 to 24 for the library, up to 256 for the program), all block and tooth counts that ecmult_gen.h accepts, all base points, all scalars and points", "why_tests_cant": "the generators are run for one configuration in the repository and the tests of a build sample a few multiplications, while each build configuration has its own tables with up to millions of entries", "anchors": ["src/ecmult_compute_table_impl.h: secp256k1_ecmult_compute_table, secp256k1_ecmult_compute_two_tables", "src/ecmult_gen_compute_table_impl.h: secp256k1_ecmult_gen_compute_table", "src/precompute_ecmult.c", "src/precompute_ecmult_gen.c", "src/ecmult_gen.h: COMB_BLOCKS, COMB_TEETH, COMB_SPACING", "src/ecmult.h: ECMULT_WINDOW_SIZE", "include/secp256k1.h: secp256k1_ec_pubkey_create"]}
{"id": "C76", "title": "The lax DER parsers accept exactly their documented formats, fail closed and never read out of bounds", "statement": "The lax signature parser of contrib returns 1 exactly when the input is a sequence of two integers under the documented relaxations of DER, and then yields both numbers, or a zero signature when one is out of range; on any other input it returns 0 with a zero signature, and a zero signature verifies for no message and key. It accepts every strict DER signature and reads the same numbers as the strict parser. Private key import returns 1 exactly on a relaxed ECPrivateKey with a key in range and otherwise returns 0 with zeros; private key export writes the SEC 1 ECPrivateKey encoding with the curve's parameters and the right public key, and importing it gives back the key. No call reads outside its input.", "quantifier": "all inputs of any length, all secret keys, all live contexts, 32-bit and 64-bit size_t, all messages and public keys", "why_tests_cant": "malformed encodings are unbounded in number, and an overread or an accepted encoding that was meant to be rejected shows only for particular lengths", "anchors": ["contrib/lax_der_parsing.c: ecdsa_signature_parse_der_lax", "contrib/lax_der_privatekey_parsing.c: ec_privkey_import_der, ec_privkey_export_der", "contrib/lax_der_parsing.h", "contrib/lax_der_privatekey_parsing.h"]}
{"id": "C77", "title": "Multi-point multiplication is exact on the machine words of every target", "statement": "The batched multi-scalar multiplication, run on the limbs of either field implementation and with the structure sizes and size_t of any 32-bit or 64-bit target, returns sum a_i P_i + gG for any number of points and any scratch space, without overflowing a limb; it leaves the scratch space as it found it, also when the callback fails, and never calls the error callback.", "quantifier": "all lists of scalars and points within the documented magnitudes, all scratch spaces, all four combinations of word size and field implementation, all bucket windows", "why_tests_cant": "Limb overflow after a particular sequence of additions, and batch boundaries that depend on structure sizes of targets the tests do not run on.", "anchors": ["src/ecmult_impl.h: secp256k1_ecmult_multi_var, secp256k1_ecmult_pippenger_batch, secp256k1_ecmult_strauss_batch, secp256k1_pippenger_max_points", "src/scratch_impl.h"]}
{"id": "C78", "title": "Point operations work in place, whatever pointers coincide", "statement": "Every point operation stores in its output what it computes from the values its inputs had before the call, also when the output is one of the inputs or the inputs are the same object, and changes no other object; no such call multiplies field elements with overlapping arguments. Any sequence of such calls with any pointers of the right types, starting from objects within the documented magnitudes, yields objects within the magnitudes that represent the points the calls mean. The batch conversions to affine coordinates and the tables of odd multiples, which use their output arrays as scratch space, are correct for any number of points.", "quantifier": "all choices of pointers to equal or different objects, all memory contents, all programs of calls, arrays of any length, both field implementations", "why_tests_cant": "the tests call with some combinations of equal pointers and with few values; a statement that reads an input after the output has overwritten it shows only for particular combinations", "anchors": ["src/group_impl.h: secp256k1_gej_add_var, secp256k1_gej_add_ge_var, secp256k1_gej_add_zinv_var, secp256k1_gej_add_ge, secp256k1_gej_double, secp256k1_ge_set_gej, secp256k1_ge_set_all_gej_var, secp256k1_ge_table_set_globalz", "src/ecmult_impl.h: secp256k1_ecmult_odd_multiples_table", "src/field_impl.h: secp256k1_fe_mul"]}
{"id": "C79", "title": "The example programs succeed exactly when their inputs allow it, and print what they claim", "statement": "Each program in examples/ (ECDSA, ECDH, ElligatorSwift key exchange, Schnorr, MuSig) composes API calls. With working randomness and valid secret keys no call reaches the illegal callback and no assertion fails: the ECDSA and Schnorr programs find their own signatures valid, both parties of the key exchanges derive the same secret, and the MuSig program, which sorts its signers' keys, tweaks the aggregate twice and verifies every partial signature, ends with a signature that is valid under BIP-340 for the tweaked aggregate key and with zeroed secret nonces. With missing randomness or an invalid key the programs end with EXIT_FAILURE before they print anything.", "quantifier": "all secret keys, all randomness, all contents of uninitialised memory, any number of MuSig signers and any 32-byte message", "why_tests_cant": "the programs run on one random key each; that the composition of calls never trips an assertion, an undefined read or the illegal callback ranges over all keys, nonces, blindings and signer orders", "anchors": ["examples/ecdsa.c:main", "examples/ecdh.c:main", "examples/ellswift.c:main", "examples/schnorr.c:main", "examples/musig.c:main", "examples/musig.c:create_keypair", "examples/musig.c:tweak", "examples/musig.c:sign"]}
{"id": "C80", "title": "A build with the consistency checks never aborts in the field and point code, and computes the same", "statement": "A build with VERIFY (the tests and fuzzers) keeps a magnitude and a normalized flag beside each field element and aborts when a VERIFY_CHECK fails. For field elements whose recorded magnitude is right and within the documented limits, and for every point within the documented magnitudes (on the curve or not), no VERIFY_CHECK of the field and point functions fails, including the checks that an inverse is zero exactly for zero and that the negative of a non-square's candidate root squares back; the magnitude and flag of every result are right, and the limbs are those that a build without VERIFY computes. So this holds along every sequence of point operations. The consistency check of an element itself passes exactly if its limbs are within the recorded magnitude, or normalized if the flag is set.", "quantifier": "all limbs of all magnitudes within the limits, all points, all sequences of point operations of any length, both field implementations", "why_tests_cant": "the tests run this very build, on samples; a magnitude that is wrong by one only trips a check, or overflows, on rare limbs or on rare branches", "anchors": ["src/field_impl.h:secp256k1_fe_verify", "src/field_impl.h:secp256k1_fe_sqrt", "src/field_impl.h:secp256k1_fe_inv", "src/field_impl.h:secp256k1_fe_cmov", "src/field_5x52_impl.h:secp256k1_fe_impl_verify", "src/field_10x26_impl.h:secp256k1_fe_impl_verify", "src/group_impl.h:secp256k1_gej_verify", "src/group_impl.h:secp256k1_ge_verify", "src/group_impl.h:secp256k1_gej_add_ge", "src/group_impl.h:secp256k1_gej_add_var"]}
{"id": "C81", "title": "A build with the consistency checks never aborts in the multiplication of points, and computes the same", "statement": "In a build with VERIFY no check fails in the multiplication code, and it computes the limbs that a build without the checks computes: the variable-time multiplication of any number of points of the curve together with the generator, for the shipped tables and for the tables of every accepted window size; the constant-time multiplication of a point; the constant-time multiplication of an x-coordinate given as a fraction, for a nonzero scalar and denominator, and an x that is on the curve if the caller says so; and the multiplication of the generator, for every accepted comb table, after any history of blinding calls. The checks at stake are that split scalars are short, that digits are odd and in range, that nothing is left over after the last digit, that no table of odd multiples contains the point at infinity, that indices lie in their tables and that the x-only result is not the point at infinity. They are real: a digit out of range, a zero scalar or denominator and a table entry that is no field element abort the program, and so does a point off the curve whose order is 3.", "quantifier": "all scalars, all points of the curve in every representation within the magnitudes, lists of any length, all accepted window sizes and comb tables, all histories of blinding, both field implementations", "why_tests_cant": "the tests run the checks on samples of scalars and points; that no scalar makes a digit overflow, a carry remain or a table entry vanish is a statement about all of them", "anchors": ["src/ecmult_impl.h:secp256k1_ecmult_odd_multiples_table", "src/ecmult_impl.h:secp256k1_ecmult_table_verify", "src/ecmult_impl.h:secp256k1_ecmult_wnaf", "src/ecmult_impl.h:secp256k1_ecmult_strauss_wnaf", "src/ecmult_const_impl.h:secp256k1_ecmult_const", "src/ecmult_const_impl.h:secp256k1_ecmult_const_xonly", "src/ecmult_gen_impl.h:secp256k1_ecmult_gen", "src/ecmult_gen_impl.h:secp256k1_ecmult_gen_blind", "src/scalar_impl.h:secp256k1_scalar_split_lambda_verify"]}
{"id": "C82", "title": "Sorting public keys moves whole pointers and stays inside the array, on the bytes", "statement": "Sorting an array works on its raw bytes for every element size, and for every number of elements that fits the address space: no byte outside the array is read or written, no size computation wraps around, no check of a VERIFY build fails, and afterwards the array holds the bytes of the same elements, each intact, in ascending order of the comparison. For the array of pointers given to the public key sort: the same pointers, in ascending order of the key comparison; for valid keys the compressed encodings are in lexicographic order and no callback is called.", "quantifier": "all element and pointer sizes, all array lengths up to the address space, all byte contents, all comparisons that decide a total preorder, all sizes of size_t", "why_tests_cant": "tests sort a few small arrays of a few element sizes; chunk boundaries, index overflow and partial moves of an element depend on all sizes", "anchors": ["src/hsort_impl.h:secp256k1_hsort", "src/hsort_impl.h:secp256k1_heap_down", "src/hsort_impl.h:secp256k1_heap_swap", "src/hsort_impl.h:secp256k1_heap_swap64", "src/hsort_impl.h:secp256k1_heap_child1", "src/secp256k1.c:secp256k1_ec_pubkey_sort"]}
{"id": "C83", "title": "A VERIFY build of the hash, recovery, ElligatorSwift, extrakeys and MuSig functions aborts only in the stated cases", "statement": "In a build with VERIFY, hashing fewer than 2^61 bytes, ElligatorSwift decoding, the x-only and keypair functions and the MuSig key tweaks never abort and have the same effects as the normal build, for all arguments. Key recovery does the same for every object whose recovery id is below 4 (every object the library makes), and aborts for the others. ElligatorSwift encoding and creation abort only if one of the pseudorandom draws is a multiple of the field prime, MuSig key aggregation exactly if the aggregate of the keys is infinity, MuSig nonce generation exactly if one of the two nonces is zero; in all other cases the effects are those of the normal build. Finalizing a hash of 2^61 or more bytes aborts.", "quantifier": "all messages in any pieces, all 64-byte strings, all signature, key, keypair and cache objects, all lists of fewer than 2^50 keys, all randomness and optional arguments", "why_tests_cant": "the checks fail for inputs that random tests do not find; that they never fail otherwise is a statement about all inputs", "anchors": ["src/hash_impl.h:secp256k1_sha256_write", "src/hash_impl.h:secp256k1_sha256_finalize", "src/modules/recovery/main_impl.h:secp256k1_ecdsa_recover", "src/modules/ellswift/main_impl.h:secp256k1_ellswift_xswiftec_frac_var", "src/modules/ellswift/main_impl.h:secp256k1_ellswift_xswiftec_inv_var", "src/modules/ellswift/main_impl.h:secp256k1_ellswift_prng", "src/modules/ellswift/main_impl.h:secp256k1_ellswift_encode", "src/modules/extrakeys/main_impl.h:secp256k1_extrakeys_ge_even_y", "src/modules/musig/keyagg_impl.h:secp256k1_musig_pubkey_agg", "src/modules/musig/keyagg_impl.h:secp256k1_musig_pubkey_tweak_add_internal", "src/modules/musig/session_impl.h:secp256k1_musig_nonce_gen_internal"]}
{"id": "C84", "title": "A VERIFY build of the 64-bit scalar arithmetic never aborts on canonical scalars, and computes the same", "statement": "In a build with VERIFY and 64-bit scalar limbs, addition, multiplication, negation, halving, adding a bit, reading bits, the conversions from and to integers and 32-byte strings, the tests, the conditional move, the rounded product, both ways to split a scalar and both inverses pass all their checks for all scalars below the group order and all parameters within the documented conditions, and give the result of the build without checks. The checks are real: a scalar that is not below the order makes every function abort that takes it, and parameters outside the documented conditions abort.", "quantifier": "all scalars below the group order, all 32-byte strings, all 512-bit numbers for the reduction, all bit positions, counts and shifts", "why_tests_cant": "the checks on the carries of the multiplication concern values that occur with negligible probability; that no pair of scalars makes one of them fail is a statement about 2^512 pairs", "anchors": ["src/scalar_4x64_impl.h:secp256k1_scalar_add", "src/scalar_4x64_impl.h:secp256k1_scalar_mul", "src/scalar_4x64_impl.h:secp256k1_scalar_mul_512", "src/scalar_4x64_impl.h:secp256k1_scalar_reduce_512", "src/scalar_4x64_impl.h:secp256k1_scalar_half", "src/scalar_4x64_impl.h:secp256k1_scalar_cadd_bit", "src/scalar_4x64_impl.h:secp256k1_scalar_mul_shift_var", "src/scalar_4x64_impl.h:secp256k1_scalar_inverse", "src/scalar_4x64_impl.h:secp256k1_scalar_from_signed62", "src/scalar_impl.h:secp256k1_scalar_verify", "src/scalar_impl.h:secp256k1_scalar_split_lambda", "src/scalar_impl.h:secp256k1_scalar_split_lambda_verify"]}
{"id": "C85", "title": "The self-checks inside the constant-time modular inverse never fail for an invertible argument or zero, and always fail otherwise", "statement": "In a build with VERIFY and 64-bit limbs, the constant-time modular inverse passes all the checks in its code, for every odd modulus from 3 to 2^256 and every argument below it that is zero or coprime to it, and returns what the build without checks returns: the inverse, or zero for zero. For every other argument below the modulus it aborts. So the inverse of a scalar and of a field element never abort there.", "quantifier": "all moduli that modinv64.h allows, all arguments below the modulus given by limbs of 62 bits; all words for the division steps; all canonical scalars; all field elements of magnitude up to 32", "why_tests_cant": "The checks are on ranges, matrices and determinants of ten rounds of 59 steps on 256-bit numbers; tests reach a vanishing part of the arguments, and only two moduli are used in the library.", "anchors": ["src/modinv64_impl.h: secp256k1_modinv64, secp256k1_modinv64_divsteps_59, secp256k1_modinv64_update_de_62, secp256k1_modinv64_update_fg_62, secp256k1_modinv64_normalize_62, secp256k1_modinv64_mul_cmp_62, secp256k1_modinv64_det_check_pow2, secp256k1_modinv64_abs", "src/int128_native_impl.h: secp256k1_i128_to_i64, secp256k1_i128_det, secp256k1_i128_check_pow2", "src/scalar_4x64_impl.h: secp256k1_scalar_inverse", "src/field_5x52_impl.h: secp256k1_fe_impl_inv, secp256k1_fe_from_signed62"]}
{"id": "C86", "title": "The self-checks inside the variable-time modular inverse never fail for an invertible argument or zero, and always fail otherwise", "statement": "In a build with VERIFY and 64-bit limbs, the variable-time modular inverse passes all the checks in its code, the limit of twelve passes included, for every odd modulus that modinv64.h allows and every argument below it that is zero or coprime to it, and returns what the build without checks and the constant-time inverse return: the inverse, or zero for zero. For every other argument below the modulus it aborts. So the variable-time inverse of a scalar and of a field element never abort there.", "quantifier": "all moduli that modinv64.h allows, all arguments below the modulus given by limbs of 62 bits; all words for the division steps; all numbers of limbs in use; all canonical scalars; all field elements of magnitude up to 32", "why_tests_cant": "The number of passes, the number of bits cancelled in each and the number of limbs in use depend on the argument; the worst case of 744 steps and the bounds on the counter are reached by no known test input.", "anchors": ["src/modinv64_impl.h: secp256k1_modinv64_var, secp256k1_modinv64_divsteps_62_var, secp256k1_modinv64_update_fg_62_var, secp256k1_modinv64_update_de_62, secp256k1_modinv64_mul_cmp_62, secp256k1_modinv64_mul_62, secp256k1_modinv64_det_check_pow2", "src/util.h: secp256k1_ctz64_var", "src/scalar_4x64_impl.h: secp256k1_scalar_inverse_var", "src/field_5x52_impl.h: secp256k1_fe_impl_inv_var"]}
{"id": "C87", "title": "The self-checks inside the Jacobi symbol never fail for an argument that is not zero, and the test for squares gives the same answer with and without them", "statement": "In a build with VERIFY and 64-bit limbs, the function for the Jacobi symbol passes all the checks in its code, for every odd modulus that modinv64.h allows and every argument below it that is not zero, coprime or not; zero and negative limbs make it abort. It makes twelve passes at most in place of 25, so that it may give up where the other build does not; when it does not give up it returns the symbol, as the other build does. The test whether a field element is a square never aborts there and gives the right answer for every element, the one of the build without VERIFY.", "quantifier": "all moduli that modinv64.h allows, all arguments below the modulus given by limbs of 62 bits; all words for the division steps; all field elements of magnitude up to 32", "why_tests_cant": "Whether the twelve passes are enough, the bits cancelled in each and the number of limbs in use depend on the argument; the answer of the fallback and of the symbol must agree for every element.", "anchors": ["src/modinv64_impl.h: secp256k1_jacobi64_maybe_var, secp256k1_modinv64_posdivsteps_62_var, secp256k1_modinv64_update_fg_62_var, secp256k1_modinv64_mul_cmp_62, secp256k1_modinv64_det_check_pow2, JACOBI64_ITERATIONS", "src/field_5x52_impl.h: secp256k1_fe_impl_is_square_var"]}
{"id": "C88", "title": "The self-checks inside the field arithmetic on five limbs never fail for operands of the magnitudes that callers may pass", "statement": "In a build with VERIFY and 64-bit limbs, the multiplication and the squaring of field elements check the width of every intermediate value. None of these checks fails when the limbs of the operands have at most 56 bits and the highest at most 52, in particular for every operand of magnitude up to 8, and the result is that of the build without VERIFY; operands with wider limbs are refused. The checks on the carries of the three normalizations and the two tests for zero and the check on the parity in a halving cannot fail whatever the limbs are, and those of a negation pass for every magnitude up to 31.", "quantifier": "all limbs; all pairs of operands; all magnitudes up to 31 for negation", "why_tests_cant": "The widest intermediate values occur only for operands with all limbs near their bounds, which neither random field elements nor the sums and multiples that the code forms come close to.", "anchors": ["src/field_5x52_int128_impl.h: secp256k1_fe_mul_inner, secp256k1_fe_sqr_inner, VERIFY_BITS, VERIFY_BITS_128", "src/field_5x52_impl.h: secp256k1_fe_impl_normalize, secp256k1_fe_impl_normalize_weak, secp256k1_fe_impl_normalize_var, secp256k1_fe_impl_normalizes_to_zero, secp256k1_fe_impl_normalizes_to_zero_var, secp256k1_fe_impl_negate_unchecked, secp256k1_fe_impl_half", "src/int128_native_impl.h: secp256k1_u128_check_bits"]}
{"id": "C89", "title": "The self-checks inside the field arithmetic on ten limbs never fail for operands of the magnitudes that callers may pass", "statement": "In a build with VERIFY and 32-bit limbs, the multiplication and the squaring of field elements check the width of every intermediate value, in a few places against a bound that can be reached to the unit. None of these checks fails when the limbs of the operands have at most 30 bits and the highest at most 26, in particular for every operand of magnitude up to 8, and the result is that of the build without VERIFY; operands with wider limbs are refused. The checks on the carries of the three normalizations and the two tests for zero and the check on the parity in a halving cannot fail whatever the limbs are, and those of a negation pass for every magnitude up to 31.", "quantifier": "all limbs; all pairs of operands; all magnitudes up to 31 for negation", "why_tests_cant": "The widest intermediate values occur only for operands with all limbs near their bounds, and the sums then fill all but a fraction of 64 bits; random operands stay far below.", "anchors": ["src/field_10x26_impl.h: secp256k1_fe_mul_inner, secp256k1_fe_sqr_inner, VERIFY_BITS, secp256k1_fe_impl_normalize, secp256k1_fe_impl_normalize_weak, secp256k1_fe_impl_normalize_var, secp256k1_fe_impl_normalizes_to_zero, secp256k1_fe_impl_normalizes_to_zero_var, secp256k1_fe_impl_negate_unchecked, secp256k1_fe_impl_half"]}
