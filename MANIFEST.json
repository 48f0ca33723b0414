{
 "claims": [
  {
   "property": "C01",
   "status": "proved",
   "theorems": [
    "Secp.C01_parse_accepts_iff",
    "Secp.C01_parse_value",
    "Secp.C01_parse_sound",
    "Secp.C01_parse_failure"
   ],
   "note": "All inputs; value-level field and scalar arithmetic."
  },
  {
   "property": "C02",
   "status": "proved",
   "theorems": [
    "Secp.C02_serialize_compressed",
    "Secp.C02_serialize_uncompressed",
    "Secp.C02_parse_serialize",
    "Secp.C02_serialize_parse",
    "Secp.C02_serialize_small"
   ],
   "note": "All inputs; value-level field and scalar arithmetic."
  },
  {
   "property": "C03",
   "status": "proved",
   "theorems": [
    "Secp.C03_cmp_lex",
    "Secp.C03_cmp_eq_zero",
    "Secp.C03_cmp_antisymm",
    "Secp.C03_cmp_trans",
    "Secp.C03_cmp_invalid"
   ],
   "note": "All inputs; value-level field and scalar arithmetic."
  },
  {
   "property": "C04",
   "status": "proved",
   "theorems": [
    "Secp.C04_sort",
    "Secp.C04_sort_valid",
    "Secp.C04_null"
   ],
   "note": "for arrays of any length and any pointers, valid or not; for valid keys the callback is never called"
  },
  {
   "property": "C05",
   "status": "proved",
   "theorems": [
    "Secp.C05_parse_der_accepts",
    "Secp.C05_parse_der_rejects",
    "Secp.C05_parse_der_no_overread"
   ],
   "note": "DER parser accepts exactly strict DER (with the documented tolerance for negative and oversized integers) and never reads outside its input"
  },
  {
   "property": "C06",
   "status": "proved",
   "theorems": [
    "Secp.C06_serialize_der",
    "Secp.C06_roundtrip",
    "Secp.C06_canonical"
   ],
   "note": "serialization writes the unique DER encoding, reports size, and parsing inverts it"
  },
  {
   "property": "C07",
   "status": "proved",
   "theorems": [
    "Secp.C07_parse_compact",
    "Secp.C07_serialize_compact",
    "Secp.C07_parse_serialize",
    "Secp.C07_serialize_parse"
   ],
   "note": "compact form"
  },
  {
   "property": "C08",
   "status": "proved",
   "theorems": [
    "Secp.C08_normalize",
    "Secp.C08_normalize_null",
    "Secp.C08_low",
    "Secp.C08_idempotent"
   ],
   "note": "normalize gives low s, idempotent, in place"
  },
  {
   "property": "C09",
   "status": "proved",
   "theorems": [
    "Secp.C09_verify_accepts",
    "Secp.C09_verify_rejects",
    "Secp.C09_zero_key"
   ],
   "note": "verify decides exactly the SEC 1 equation with low s, and never calls the illegal callback for a valid key"
  },
  {
   "property": "C10",
   "status": "proved",
   "theorems": [
    "Secp.C10_sign_verifies",
    "Secp.C10_sign_succeeds"
   ],
   "note": "every signature returned with 1 verifies, for every nonce function, attempt and context history; signing returns 1 as soon as a nonce is usable"
  },
  {
   "property": "C11",
   "status": "proved",
   "theorems": [
    "Secp.C11_calls",
    "Secp.C11_invalid_key",
    "Secp.C11_sign_result",
    "Secp.C11_sign_ends"
   ],
   "note": "complete characterization of the result of signing"
  },
  {
   "property": "C12",
   "status": "proved",
   "theorems": [
    "Secp.C12_rfc6979",
    "Secp.C12_default",
    "Secp.C12_seed_injective"
   ],
   "note": "for counters below 2^32-1; for counter 2^32-1 the C loop never ends (modelled as none, unreachable from the library in less than 2^32 attempts)"
  },
  {
   "property": "C13",
   "status": "proved",
   "theorems": [
    "Secp.C13_recover_signed",
    "Secp.C13_same_signature",
    "Secp.C13_succeeds",
    "Secp.C13_invalid_key"
   ],
   "note": "for every nonce function and attempt, both low-s branches and all four recovery ids"
  },
  {
   "property": "C14",
   "status": "proved",
   "theorems": [
    "Secp.C14_recover_iff",
    "Secp.C14_recover_fails",
    "Secp.C14_sound",
    "Secp.C14_point_unique",
    "Secp.C14_overflow_bound"
   ],
   "note": "exact success condition, soundness and agreement with verify"
  },
  {
   "property": "C15",
   "status": "proved",
   "theorems": [
    "Secp.C15_parse",
    "Secp.C15_illegal_recid",
    "Secp.C15_serialize",
    "Secp.C15_parse_serialize",
    "Secp.C15_serialize_parse",
    "Secp.C15_convert"
   ],
   "note": ""
  },
  {
   "property": "C16",
   "status": "proved",
   "theorems": [
    "Secp.C16_seckey_verify",
    "Secp.C16_pubkey_create",
    "Secp.C16_pubkey_create_invalid",
    "Secp.C16_pubkey_create_nonzero",
    "Secp.C16_pubkey_create_injective"
   ],
   "note": "All inputs; value-level field and scalar arithmetic."
  },
  {
   "property": "C17",
   "status": "proved",
   "theorems": [
    "Secp.C17_seckey_negate",
    "Secp.C17_seckey_negate_invalid",
    "Secp.C17_pubkey_negate",
    "Secp.C17_pubkey_negate_invalid",
    "Secp.C17_negate_agree",
    "Secp.C17_negate_involutive"
   ],
   "note": "All inputs; value-level field and scalar arithmetic."
  },
  {
   "property": "C18",
   "status": "proved",
   "theorems": [
    "Secp.C18_seckey_tweak_add",
    "Secp.C18_seckey_tweak_add_fail",
    "Secp.C18_pubkey_tweak_add",
    "Secp.C18_pubkey_tweak_add_fail",
    "Secp.C18_tweak_add_agree"
   ],
   "note": "All inputs; value-level field and scalar arithmetic."
  },
  {
   "property": "C19",
   "status": "proved",
   "theorems": [
    "Secp.C19_seckey_tweak_mul",
    "Secp.C19_seckey_tweak_mul_fail",
    "Secp.C19_pubkey_tweak_mul",
    "Secp.C19_pubkey_tweak_mul_fail",
    "Secp.C19_tweak_mul_agree"
   ],
   "note": "All inputs; value-level field and scalar arithmetic."
  },
  {
   "property": "C20",
   "status": "proved",
   "theorems": [
    "Secp.C20_combine",
    "Secp.C20_combine_infinity",
    "Secp.C20_combine_perm"
   ],
   "note": "All inputs; value-level field and scalar arithmetic."
  },
  {
   "property": "C21",
   "status": "proved",
   "theorems": [
    "Secp.C21_agreement",
    "Secp.C21_default_hash"
   ],
   "note": "agreement on the coordinates of (ab)G for every hash function; the default hash is SHA-256 of the compressed point"
  },
  {
   "property": "C22",
   "status": "proved",
   "theorems": [
    "Secp.C22_invalid_seckey",
    "Secp.C22_valid_seckey"
   ],
   "note": ""
  },
  {
   "property": "C23",
   "status": "proved",
   "theorems": [
    "Secp.C23_verify_iff",
    "Secp.C23_verify_null_message",
    "Secp.C23_verify_invalid_key"
   ],
   "note": "verification is equivalent to the BIP-340 predicate for every signature, message length and key; precomputed midstate checked in the kernel"
  },
  {
   "property": "C24",
   "status": "proved",
   "theorems": [
    "Secp.C24_sign_internal_verify",
    "Secp.C24_sign32_verify",
    "Secp.C24_sign_custom_verify",
    "Secp.C24_sign_succeeds"
   ],
   "note": "every successful signature verifies, for every keypair history, message, nonce function and data"
  },
  {
   "property": "C25",
   "status": "proved",
   "theorems": [
    "Secp.C25_zero_signature",
    "Secp.C25_invalid_keypair",
    "Secp.C25_nonce_failure",
    "Secp.C25_wrong_magic",
    "Secp.C25_custom_eq",
    "Secp.C25_null_arguments"
   ],
   "note": "invalid keypairs, failing nonces, wrong magic, NULL arguments"
  },
  {
   "property": "C26",
   "status": "proved",
   "theorems": [
    "Secp.C26_xonlyValid_iff",
    "Secp.C26_parse_accepts_iff",
    "Secp.C26_parse_value",
    "Secp.C26_parse_failure",
    "Secp.C26_serialize",
    "Secp.C26_serialize_parse",
    "Secp.C26_parse_serialize",
    "Secp.C26_from_pubkey",
    "Secp.C26_from_pubkey_injective",
    "Secp.C26_cmp_lex",
    "Secp.C26_cmp_invalid"
   ],
   "note": "parse, serialize, from_pubkey and cmp of x-only keys, all 32-byte strings and all keys"
  },
  {
   "property": "C27",
   "status": "proved",
   "theorems": [
    "Secp.C27_tweak_add",
    "Secp.C27_tweak_add_fail",
    "Secp.C27_check_iff",
    "Secp.C27_check_matches_add"
   ],
   "note": "tweak_add and tweak_add_check for every x-only key, tweak and claimed output"
  },
  {
   "property": "C28",
   "status": "proved",
   "theorems": [
    "Secp.C28_create",
    "Secp.C28_create_invalid",
    "Secp.C28_tweak",
    "Secp.C28_made",
    "Secp.C28_consistent",
    "Secp.C28_tweak_agrees",
    "Secp.C28_failed_dead"
   ],
   "note": "invariant over every finite history of successful keypair calls; each tweak agrees with xonly_pubkey_tweak_add"
  },
  {
   "property": "C29",
   "status": "proved",
   "theorems": [
    "Secp.C29_aggregate",
    "Secp.C29_aggregate_invalid_key",
    "Secp.C29_tweak",
    "Secp.C29_get",
    "Secp.C29_tweak_sequence",
    "Secp.C29_tweak_invariant",
    "Secp.C29_flow"
   ],
   "note": "Keys are point objects; the aggregate is assumed not to be infinity."
  },
  {
   "property": "C30",
   "status": "proved",
   "theorems": [
    "Secp.C30_sign",
    "Secp.C30_verify_iff",
    "Secp.C30_sign_verify",
    "Secp.C30_sign_wrong_key"
   ],
   "note": "Objects made by the library."
  },
  {
   "property": "C31",
   "status": "proved",
   "theorems": [
    "Secp.C31_flow_any_order",
    "Secp.C31_flow"
   ],
   "note": "whole signing session for any list of signers with nonzero keys and nonces, any order of the keys in the aggregation (C31_flow_any_order) and any accepted tweak sequence; verification is exactly equivalent to the final nonce being finite"
  },
  {
   "property": "C32",
   "status": "proved",
   "theorems": [
    "Secp.C32_signs_once",
    "Secp.C32_sign_zeroes",
    "Secp.C32_zero_rejected"
   ],
   "note": "all histories of nonce generation and signing calls on all secret nonce objects with arbitrary arguments; copying the object's bytes by the caller is outside the API"
  },
  {
   "property": "C33",
   "status": "proved",
   "theorems": [
    "Secp.C33_nonce_gen",
    "Secp.C33_zero_randomness",
    "Secp.C33_invalid_seckey",
    "Secp.C33_failure",
    "Secp.C33_nonce_gen_counter",
    "Secp.C33_input_injective",
    "Secp.C33_counter_distinct"
   ],
   "note": "all arguments; functional result under the condition that the two nonce hashes are not zero modulo the order (the code has VERIFY_CHECKs for this)"
  },
  {
   "property": "C34",
   "status": "proved",
   "theorems": [
    "Secp.C34_pubnonce_parse",
    "Secp.C34_pubnonce_serialize",
    "Secp.C34_pubnonce_round_trip",
    "Secp.C34_aggnonce_parse",
    "Secp.C34_aggnonce_serialize",
    "Secp.C34_aggnonce_round_trip",
    "Secp.C34_partial_sig_parse",
    "Secp.C34_partial_sig_serialize",
    "Secp.C34_partial_sig_round_trip",
    "Secp.C34_wrong_kind"
   ],
   "note": "all objects and byte strings, both directions"
  },
  {
   "property": "C35",
   "status": "proved",
   "theorems": [
    "Secp.C35_nonce_agg",
    "Secp.C35_order",
    "Secp.C35_illegal"
   ],
   "note": "Objects made by the library."
  },
  {
   "property": "C36",
   "status": "proved",
   "theorems": [
    "Secp.C36_streaming",
    "Secp.C36_split_irrelevant",
    "Secp.C36_reuse",
    "Secp.C36_tagged",
    "Secp.C36_tagged_null"
   ],
   "note": "Streaming SHA-256 (unrolled transform, buffered writes, padding) equals FIPS 180-4 for every split; tagged hash API."
  },
  {
   "property": "C37",
   "status": "proved",
   "theorems": [
    "Secp.C37_hmac",
    "Secp.C37_rfc6979",
    "Secp.C37_length"
   ],
   "note": "HMAC for every key length and chunk sequence; RFC 6979 generator outputs for every sequence of requests."
  },
  {
   "property": "C38",
   "status": "proved",
   "theorems": [
    "Secp.C38_randomize_succeeds",
    "Secp.C38_pubkey_create_same",
    "Secp.C38_generator_multiplication_same",
    "Secp.C38_ecdsa_sign_same",
    "Secp.C38_musig_nonce_gen_same",
    "Secp.C38_create_same",
    "Secp.C38_schnorr_sign_any_same",
    "Secp.C38_musig_nonce_same",
    "Secp.C38_schnorr_sign_same",
    "Secp.C38_keypair_create_same"
   ],
   "note": "public keys, keypairs, ElligatorSwift encodings, ECDSA, recoverable and Schnorr signatures, MuSig nonces, for every two contexts reachable by any sequence of create, clone and randomize calls; C38_create_same, C38_schnorr_sign_any_same and C38_musig_nonce_same for all arguments, valid or not"
  },
  {
   "property": "C39",
   "status": "proved",
   "theorems": [
    "Secp.C39_history",
    "Secp.C39_live_supports",
    "Secp.C39_static_rejects",
    "Secp.C39_create",
    "Secp.C39_new_context",
    "Secp.C39_destroy_wipes",
    "Secp.C39_set_callbacks",
    "Secp.C39_selftest"
   ],
   "note": "histories of context calls by induction; creation (from the defaults, whatever the memory held), cloning, static context, wiping on destruction, callbacks"
  },
  {
   "property": "C40",
   "status": "proved",
   "theorems": [
    "Secp.C40_ec_pubkey_parse",
    "Secp.C40_ec_pubkey_serialize",
    "Secp.C40_ec_seckey_verify",
    "Secp.C40_ec_pubkey_create",
    "Secp.C40_ec_seckey_negate",
    "Secp.C40_ec_pubkey_negate",
    "Secp.C40_ec_seckey_tweak_add",
    "Secp.C40_ec_seckey_tweak_mul",
    "Secp.C40_ec_pubkey_tweak_add",
    "Secp.C40_ec_pubkey_tweak_null",
    "Secp.C40_ec_pubkey_tweak_mul",
    "Secp.C40_ec_pubkey_combine",
    "Secp.C40_context_randomize",
    "Secp.C40_context_clone",
    "Secp.C40_context_preallocated_clone",
    "Secp.C40_context_preallocated_create",
    "Secp.C40_context_create",
    "Secp.C40_context_destroy",
    "Secp.C40_context_set_callbacks",
    "Secp.C40_tagged_sha256",
    "Secp.C40_ecdsa_signature_parse_der",
    "Secp.C40_ecdsa_signature_parse_compact",
    "Secp.C40_ecdsa_signature_serialize_der",
    "Secp.C40_ecdsa_signature_serialize_compact",
    "Secp.C40_ecdsa_signature_normalize",
    "Secp.C40_ecdsa_verify",
    "Secp.C40_ecdsa_sign",
    "Secp.C40_ecdsa_recoverable_signature_parse_compact",
    "Secp.C40_ecdsa_recoverable_signature_serialize_compact",
    "Secp.C40_ecdsa_recoverable_signature_convert",
    "Secp.C40_ecdsa_sign_recoverable",
    "Secp.C40_ecdsa_recover",
    "Secp.C40_ecdh",
    "Secp.C40_ellswift_encode",
    "Secp.C40_ellswift_create",
    "Secp.C40_ellswift_decode",
    "Secp.C40_ellswift_xdh",
    "Secp.C40_ec_pubkey_cmp",
    "Secp.C40_ec_pubkey_combine_unreadable",
    "Secp.C40_ecdh_unreadable",
    "Secp.C40_ecdh_exception",
    "Secp.C40_xonly_pubkey_parse",
    "Secp.C40_xonly_pubkey_serialize",
    "Secp.C40_xonly_pubkey_from_pubkey",
    "Secp.C40_xonly_pubkey_tweak_add",
    "Secp.C40_xonly_pubkey_tweak_add_check",
    "Secp.C40_xonly_pubkey_cmp",
    "Secp.C40_keypair_create",
    "Secp.C40_keypair_sec",
    "Secp.C40_keypair_pub",
    "Secp.C40_keypair_xonly_pub",
    "Secp.C40_keypair_xonly_tweak_add",
    "Secp.C40_schnorrsig_sign_internal",
    "Secp.C40_schnorrsig_sign32",
    "Secp.C40_schnorrsig_sign_custom",
    "Secp.C40_schnorrsig_verify",
    "Secp.C40_musig_pubkey_agg",
    "Secp.C40_musig_pubkey_get",
    "Secp.C40_musig_pubkey_tweak_add",
    "Secp.C40_musig_tweaks",
    "Secp.C40_musig_pubnonce_parse",
    "Secp.C40_musig_pubnonce_serialize",
    "Secp.C40_musig_aggnonce_parse",
    "Secp.C40_musig_aggnonce_serialize",
    "Secp.C40_musig_partial_sig_parse",
    "Secp.C40_musig_partial_sig_serialize",
    "Secp.C40_musig_nonce_gen",
    "Secp.C40_musig_nonce_gen_counter",
    "Secp.C40_musig_nonce_agg",
    "Secp.C40_musig_nonce_process",
    "Secp.C40_musig_partial_sign",
    "Secp.C40_musig_partial_sig_verify",
    "Secp.C40_musig_partial_sig_agg",
    "Secp.C40_ec_pubkey_sort"
   ],
   "note": "One theorem per exported function (Reports: exact condition, one callback, return 0, outputs untouched or zero; otherwise no callback). Exceptions have their own theorems: cmp/xonly_cmp/sort, combine and ecdh on unreadable key objects, context_create. A NULL context is undefined behaviour and outside the model; so are NULL entries inside arrays of pointers for MuSig."
  },
  {
   "property": "C41",
   "status": "proved",
   "theorems": [
    "Secp.C41_gej_add_var",
    "Secp.C41_gej_add_ge_var",
    "Secp.C41_gej_add_ge",
    "Secp.C41_gej_add_zinv_var",
    "Secp.C41_gej_double",
    "Secp.C41_gej_double_var",
    "Secp.C41_neg",
    "Secp.C41_convert",
    "Secp.C41_eq",
    "Secp.C41_eq_x",
    "Secp.C41_is_valid",
    "Secp.C41_set_all_gej",
    "Secp.C41_set_all_gej_var"
   ],
   "note": "All point operations of group_impl.h refine the group law of y^2=x^3+7 over ZMod p, for every representative, exceptional cases included. secp256k1_gej_add_ge has its documented precondition (second operand not infinity). Field elements are modelled by value here; the limb layer is C45."
  },
  {
   "property": "C42",
   "status": "proved",
   "theorems": [
    "Secp.C42_ecmult",
    "Secp.C42_ecmult_no_g",
    "Secp.C42_strauss",
    "Secp.C42_tables",
    "Secp.C42_split_lambda",
    "Secp.C42_wnaf"
   ],
   "note": "secp256k1_ecmult and strauss for any list of points; all table entries kernel-checked"
  },
  {
   "property": "C43",
   "status": "proved",
   "theorems": [
    "Secp.C43_ecmult_const",
    "Secp.C43_xonly_some",
    "Secp.C43_xonly_none"
   ],
   "note": "ecmult_const and ecmult_const_xonly (d NULL or not, known_on_curve or not); fe_is_square_var modelled by its square-root branch"
  },
  {
   "property": "C44",
   "status": "proved",
   "theorems": [
    "Secp.C44_unique",
    "Secp.C44_add",
    "Secp.C44_mul",
    "Secp.C44_mul_512",
    "Secp.C44_negate",
    "Secp.C44_cond_negate",
    "Secp.C44_half",
    "Secp.C44_set_int",
    "Secp.C44_tests",
    "Secp.C44_cmov",
    "Secp.C44_cadd_bit",
    "Secp.C44_get_bits",
    "Secp.C44_set_b32",
    "Secp.C44_get_b32",
    "Secp.C44_split_128",
    "Secp.C44_mul_shift",
    "Secp.C44_split_lambda",
    "Secp.C44_program"
   ],
   "note": "Every routine of scalar_4x64_impl.h except the modular inverse (C46) is modelled on 64-bit words with explicit wrap-around, and proved exact modulo n with fully reduced results."
  },
  {
   "property": "C45",
   "status": "proved",
   "theorems": [
    "Secp.C45_mul",
    "Secp.C45_sqr",
    "Secp.C45_add",
    "Secp.C45_negate",
    "Secp.C45_mul_int",
    "Secp.C45_add_int",
    "Secp.C45_half",
    "Secp.C45_set_int",
    "Secp.C45_normalize",
    "Secp.C45_norm_unique",
    "Secp.C45_normalize_weak",
    "Secp.C45_normalizes_to_zero",
    "Secp.C45_cmov",
    "Secp.C45_is_zero_odd_cmp",
    "Secp.C45_set_b32_mod",
    "Secp.C45_set_b32_limit",
    "Secp.C45_get_b32",
    "Secp.C45_storage"
   ],
   "note": "every fe_impl operation on 5x52 limbs except inversion and the square test (C46); all inputs within the documented magnitudes"
  },
  {
   "property": "C46",
   "status": "proved",
   "theorems": [
    "Secp.C46_modinv64",
    "Secp.C46_modinv64_var",
    "Secp.C46_modinfo",
    "Secp.C46_fe_inv",
    "Secp.C46_fe_inv_var",
    "Secp.C46_scalar_inverse",
    "Secp.C46_scalar_inverse_var",
    "Secp.C46_ge_set_gej"
   ],
   "note": "Both safegcd loops on signed 62-bit limbs, for field elements and scalars and for every odd modulus the interface admits; the 590-divstep and 744-divstep bounds are proved by a norm certificate. The Jacobi symbol routine is modelled but not covered here."
  },
  {
   "property": "C47",
   "status": "proved",
   "theorems": [
    "Secp.C47_order",
    "Secp.C47_accepted_key_generates"
   ],
   "note": "Curve order and key order. Acceptance of encodings is C01."
  },
  {
   "property": "C48",
   "status": "proved",
   "theorems": [
    "Secp.C48_decode",
    "Secp.C48_unique",
    "Secp.C48_map_total",
    "Secp.C48_fraction",
    "Secp.C48_neg"
   ],
   "note": "Every 64-byte string; the map is stated as in BIP-324 (Spec/Ellswift.lean)."
  },
  {
   "property": "C49",
   "status": "proved",
   "theorems": [
    "Secp.C49_encode",
    "Secp.C49_create",
    "Secp.C49_create_invalid",
    "Secp.C49_encode_invalid",
    "Secp.C49_encode_fuel",
    "Secp.C49_create_fuel",
    "Secp.C49_inverse",
    "Secp.C49_inverse_u_zero"
   ],
   "note": "All keys, randomness and iteration bounds. The encoder's field element u = 0 mod p is excluded, as in the statement; C49_inverse_u_zero shows the exclusion is needed."
  },
  {
   "property": "C50",
   "status": "proved",
   "theorems": [
    "Secp.C50_xdh",
    "Secp.C50_agreement",
    "Secp.C50_bip324_hash",
    "Secp.C50_prefix_hash",
    "Secp.C50_bip324_flow"
   ],
   "note": "Any encodings that decode to the parties' keys, any hash function; both library hash functions; the BIP-324 flow from creation to shared secret."
  },
  {
   "property": "C51",
   "status": "partial",
   "theorems": [
    "Secp.C51_reduced",
    "Secp.C51_false",
    "Secp.C51_xdh_partial"
   ],
   "note": "False of the code (C51_false: secret key n+1 returns 1). C51_reduced says what happens instead; C51_xdh_partial covers the keys 0 and n, which are rejected."
  },
  {
   "property": "C52",
   "status": "proved",
   "theorems": [
    "Secp.C52_not_malleable",
    "Secp.C52_normalized_accepted",
    "Secp.C52_unique_sign"
   ],
   "note": "verification rejects the negated s of an accepted signature; normalization of a valid signature is accepted"
  },
  {
   "property": "C53",
   "status": "proved",
   "theorems": [
    "Secp.C53_multi",
    "Secp.C53_no_scratch",
    "Secp.C53_callback_failure",
    "Secp.C53_scratch_unchanged",
    "Secp.C53_batch_restores",
    "Secp.C53_pippenger",
    "Secp.C53_strauss",
    "Secp.C53_pippenger_wnaf",
    "Secp.C53_wnaf_fixed"
   ],
   "note": "All three algorithms (simple, Strauss, Pippenger with the GLV split, fixed-size wNAF and buckets), the choice between them and the division into batches, for every list of fewer than 2^64 points and every usable scratch space or none; a failing callback gives 0; the scratch space is always restored, also by a single batch that does not fit."
  },
  {
   "property": "C54",
   "status": "proved",
   "theorems": [
    "Secp.C54_restore",
    "Secp.C54_create",
    "Secp.C54_live",
    "Secp.C54_alloc",
    "Secp.C54_max_allocation",
    "Secp.C54_magic"
   ],
   "note": "scratch spaces: every sequence of operations"
  },
  {
   "property": "C55",
   "status": "proved",
   "theorems": [
    "Secp.C55_invariant",
    "Secp.C55_read",
    "Secp.C55_injective",
    "Secp.C55_zero_not_made",
    "Secp.C55_zero_pubkey",
    "Secp.C55_zero_pubkey_exceptions",
    "Secp.C55_zero_keypair",
    "Secp.C55_zero_sig",
    "Secp.C55_zero_copied"
   ],
   "note": "Invariant over histories (inductive Made covers every function that writes a key, keypair or signature object), reading and injectivity, rejection of the all-zero object by every consumer; exceptions stated as C55_zero_pubkey_exceptions and C55_zero_copied."
  },
  {
   "property": "C56",
   "status": "proved",
   "theorems": [
    "Secp.C56_nonce_function",
    "Secp.C56_nonce_function_null",
    "Secp.C56_sign32",
    "Secp.C56_null_aux"
   ],
   "note": "sign32 computes the BIP-340 default signature; nonce function for every algorithm name"
  },
  {
   "property": "C57",
   "status": "partial",
   "theorems": [
    "Secp.C57_refuted",
    "Secp.C57_overrun",
    "Secp.C57_create_partial"
   ],
   "note": "False of the code: C57_refuted and C57_overrun give a witness (header size added without overflow check); C57_create_partial proves the statement for all sizes that do not wrap."
  },
  {
   "property": "C58",
   "status": "proved",
   "theorems": [
    "Secp.C58_gej_double",
    "Secp.C58_gej_double_var",
    "Secp.C58_gej_add_var",
    "Secp.C58_gej_add_ge_var",
    "Secp.C58_gej_add_ge",
    "Secp.C58_gej_add_zinv_var",
    "Secp.C58_neg",
    "Secp.C58_set_ge",
    "Secp.C58_rescale",
    "Secp.C58_cmov",
    "Secp.C58_ge_set_gej",
    "Secp.C58_eq",
    "Secp.C58_is_valid",
    "Secp.C58_sqrt",
    "Secp.C58_program"
   ],
   "note": "group functions on 5x52 limbs; programs of point operations by induction; conversion to affine with any correct inversion (C46)"
  },
  {
   "property": "C59",
   "status": "proved",
   "theorems": [
    "Secp.C59_jacobi",
    "Secp.C59_is_square",
    "Secp.C59_is_square_value"
   ],
   "note": "Limb-level model of the Jacobi symbol and of fe_is_square_var; equal to Mathlib's jacobiSym / IsSquare, and to the value-level test used by the other properties."
  },
  {
   "property": "C60",
   "status": "proved",
   "theorems": [
    "Secp.C60_u128_mul",
    "Secp.C60_u128_accum_mul",
    "Secp.C60_u128_accum_u64",
    "Secp.C60_u128_rshift",
    "Secp.C60_u128_words",
    "Secp.C60_i128_mul",
    "Secp.C60_i128_accum_mul",
    "Secp.C60_i128_det",
    "Secp.C60_i128_rshift",
    "Secp.C60_i128_words",
    "Secp.C60_i128_eq"
   ],
   "note": "Every emulated operation equals the native one."
  },
  {
   "property": "C61",
   "status": "proved",
   "theorems": [
    "Secp.C61_ctz32",
    "Secp.C61_ctz64",
    "Secp.C61_agree"
   ],
   "note": "Exact for all words; agrees with the function the inversion model uses."
  },
  {
   "property": "C62",
   "status": "proved",
   "theorems": [
    "Secp.C62_model_keys",
    "Secp.C62_model_sign",
    "Secp.C62_model_exchange",
    "Secp.C62_model_musig",
    "Secp.C62_model_defaults",
    "Secp.C62_context_randomize",
    "Secp.C62_seckey",
    "Secp.C62_pubkey_create",
    "Secp.C62_defaults_constant_time",
    "Secp.C62_ecdh",
    "Secp.C62_ellswift_xdh",
    "Secp.C62_ecdsa_sign",
    "Secp.C62_ecdsa_declassifies_bits",
    "Secp.C62_ecdsa_first_nonce",
    "Secp.C62_schnorr_sign",
    "Secp.C62_schnorr_sign_custom",
    "Secp.C62_schnorr_declassifies_public",
    "Secp.C62_keypair_tweak",
    "Secp.C62_ellswift_create",
    "Secp.C62_ellswift_search_public",
    "Secp.C62_musig_nonce_gen",
    "Secp.C62_musig_nonce_gen_counter",
    "Secp.C62_musig_partial_sign"
   ],
   "note": "Relational (two-execution) theorems over instrumented versions of the functions, which are proved equal to the plain model (C62_model_*). Scalar and field operations, constant-time group functions and the SHA-256 compression are atomic steps; the compiler is outside the model."
  },
  {
   "property": "C63",
   "status": "proved",
   "theorems": [
    "Secp.C63_exactly_one",
    "Secp.C63_count",
    "Secp.C63_inverse_is_bip324",
    "Secp.C63_encode",
    "Secp.C63_create"
   ],
   "note": "the inverse map is BIP-324's XSwiftECInv; every encoding is reached by exactly one case; encode and create return what the specified search finds"
  },
  {
   "property": "C64",
   "status": "proved",
   "theorems": [
    "Secp.C64_mul",
    "Secp.C64_sqr",
    "Secp.C64_add",
    "Secp.C64_negate",
    "Secp.C64_mul_int",
    "Secp.C64_add_int",
    "Secp.C64_half",
    "Secp.C64_set_int",
    "Secp.C64_built_mag",
    "Secp.C64_normalize",
    "Secp.C64_norm_unique",
    "Secp.C64_normalize_weak",
    "Secp.C64_normalizes_to_zero",
    "Secp.C64_bounds_insufficient",
    "Secp.C64_cmov",
    "Secp.C64_is_zero_odd_cmp",
    "Secp.C64_set_b32_mod",
    "Secp.C64_set_b32_limit",
    "Secp.C64_get_b32",
    "Secp.C64_storage",
    "Secp.C64_storage_cmov"
   ],
   "note": "Model/Field10x26 (C code of the 32-bit field, inverses excepted). Bounds of magnitude 32 alone do not suffice for normalization (C64_bounds_insufficient); magnitude 31 and every element built by field operations do."
  },
  {
   "property": "C65",
   "status": "proved",
   "theorems": [
    "Secp.C65_unique",
    "Secp.C65_add",
    "Secp.C65_mul_512",
    "Secp.C65_mul",
    "Secp.C65_negate",
    "Secp.C65_cond_negate",
    "Secp.C65_half",
    "Secp.C65_set_int",
    "Secp.C65_tests",
    "Secp.C65_cmov",
    "Secp.C65_cadd_bit",
    "Secp.C65_get_bits",
    "Secp.C65_set_b32",
    "Secp.C65_get_b32",
    "Secp.C65_split_128",
    "Secp.C65_mul_shift",
    "Secp.C65_split_lambda",
    "Secp.C65_program",
    "Secp.C65_backends"
   ],
   "note": "All operations of scalar_8x32_impl.h except the modular inverses (C66) and the conversions they use."
  },
  {
   "property": "C66",
   "status": "proved",
   "theorems": [
    "Secp.C66_modinv32",
    "Secp.C66_modinv32_var",
    "Secp.C66_modinfo",
    "Secp.C66_fe_inv",
    "Secp.C66_fe_inv_var",
    "Secp.C66_fe_inv_agree",
    "Secp.C66_scalar_inverse",
    "Secp.C66_scalar_inverse_var",
    "Secp.C66_jacobi",
    "Secp.C66_is_square",
    "Secp.C66_is_square_value"
   ],
   "note": "modinv32, its Jacobi symbol and all callers in the 32-bit backends: no undefined behaviour, termination, exact results"
  },
  {
   "property": "C67",
   "status": "proved",
   "theorems": [
    "Secp.C67_gej_double",
    "Secp.C67_gej_double_var",
    "Secp.C67_gej_add_var",
    "Secp.C67_gej_add_ge_var",
    "Secp.C67_gej_add_ge",
    "Secp.C67_gej_add_zinv_var",
    "Secp.C67_neg",
    "Secp.C67_set_ge",
    "Secp.C67_rescale",
    "Secp.C67_cmov",
    "Secp.C67_ge_set_gej_of",
    "Secp.C67_eq",
    "Secp.C67_is_valid",
    "Secp.C67_sqrt",
    "Secp.C67_program",
    "Secp.C67_ge_set_gej"
   ],
   "note": "group_impl.h over the 10x26 limbs refines the group law; programs of any length keep the documented magnitudes"
  },
  {
   "property": "C68",
   "status": "proved",
   "theorems": [
    "Secp.C68_ecmult",
    "Secp.C68_ecmult_no_g",
    "Secp.C68_strauss",
    "Secp.C68_ecmult_const",
    "Secp.C68_ecmult_32",
    "Secp.C68_ecmult_no_g_32",
    "Secp.C68_strauss_32",
    "Secp.C68_ecmult_const_32",
    "Secp.C68_ecmult_gen",
    "Secp.C68_ecmult_gen_32"
   ],
   "note": "ecmult, strauss, ecmult_const and ecmult_gen over 5x52 and over 10x26 limbs, by refinement to the value-level theorems; scalars by value (C44, C65)"
  },
  {
   "property": "C69",
   "status": "proved",
   "theorems": [
    "Secp.C69_objects",
    "Secp.C69_ec_pubkey_parse",
    "Secp.C69_ec_pubkey_serialize",
    "Secp.C69_ec_pubkey_cmp",
    "Secp.C69_ec_pubkey_negate",
    "Secp.C69_ec_pubkey_tweak",
    "Secp.C69_ec_pubkey_combine",
    "Secp.C69_context_randomize",
    "Secp.C69_ec_pubkey_create",
    "Secp.C69_keypair_create",
    "Secp.C69_ecdsa_sign",
    "Secp.C69_schnorrsig_sign",
    "Secp.C69_ecdsa_verify",
    "Secp.C69_ecdsa_recover",
    "Secp.C69_ecdh",
    "Secp.C69_schnorrsig_verify",
    "Secp.C69_xonly_pubkey_parse",
    "Secp.C69_xonly_pubkey_serialize",
    "Secp.C69_xonly_pubkey_cmp",
    "Secp.C69_xonly_pubkey_from_pubkey",
    "Secp.C69_xonly_pubkey_tweak_add",
    "Secp.C69_xonly_pubkey_tweak_add_check",
    "Secp.C69_keypair_xonly_pub",
    "Secp.C69_keypair_xonly_tweak_add",
    "Secp.C69_parse",
    "Secp.C69_verify",
    "Secp.C69_sign_verifies",
    "Secp.C69_recover",
    "Secp.C69_shared_secret",
    "Secp.C69_schnorr_verify",
    "Secp.C69_schnorr_sign"
   ],
   "note": "Every API function over keys, ECDSA, recovery, ECDH, x-only keys, key pairs and Schnorr signatures on the limbs of both field implementations equals the value-level function, for all inputs."
  },
  {
   "property": "C70",
   "status": "proved",
   "theorems": [
    "Secp.C70_caches",
    "Secp.C70_pubkey_agg",
    "Secp.C70_pubkey_get",
    "Secp.C70_ec_tweak_add",
    "Secp.C70_xonly_tweak_add",
    "Secp.C70_pubnonce_parse",
    "Secp.C70_pubnonce_serialize",
    "Secp.C70_aggnonce_parse",
    "Secp.C70_aggnonce_serialize",
    "Secp.C70_nonce_gen",
    "Secp.C70_nonce_agg",
    "Secp.C70_nonce_process",
    "Secp.C70_partial_sign",
    "Secp.C70_partial_sig_verify",
    "Secp.C70_aggregate",
    "Secp.C70_verify_iff",
    "Secp.C70_flow"
   ],
   "note": "All MuSig functions with field elements, on 52-bit and on 26-bit limbs, equal the value-level functions of C29-C35; statements of C29, C30 and C31 spelled out for both builds."
  },
  {
   "property": "C71",
   "status": "proved",
   "theorems": [
    "Secp.C71_ellswift_encode",
    "Secp.C71_ellswift_create",
    "Secp.C71_ellswift_decode",
    "Secp.C71_ellswift_xdh",
    "Secp.C71_decode",
    "Secp.C71_encode",
    "Secp.C71_round_trip",
    "Secp.C71_bip324_flow"
   ],
   "note": "All ElligatorSwift functions on 52-bit and on 26-bit limbs equal the value-level functions of C48-C50 and C63; decoding, encoding, the round trip and a BIP-324 exchange between different builds spelled out."
  },
  {
   "property": "C72",
   "status": "proved",
   "theorems": [
    "Secp.C72_mul_512",
    "Secp.C72_reduce_512",
    "Secp.C72_mul",
    "Secp.C72_mul_shift",
    "Secp.C72_total",
    "Secp.C72_mul_iff"
   ],
   "note": "x86_64 inline assembly of scalar_mul_512 and scalar_reduce_512, all placements allowed by the constraints; exactly one result and it is the C code's."
  },
  {
   "property": "C73",
   "status": "proved",
   "theorems": [
    "Secp.C73_mul",
    "Secp.C73_sqr",
    "Secp.C73_mul_bits"
   ],
   "note": "asm/field_10x26_arm.s, both functions: result, aliasing, calling convention, frame condition. Bound on limbs as stated by the C code; an example shows that it is needed."
  },
  {
   "property": "C74",
   "status": "proved",
   "theorems": [
    "Secp.C74_mul",
    "Secp.C74_keys",
    "Secp.C74_xonly",
    "Secp.C74_verify_functions",
    "Secp.C74_ellswift",
    "Secp.C74_create",
    "Secp.C74_sign",
    "Secp.C74_musig_nonce_gen",
    "Secp.C74_musig",
    "Secp.C74_parse",
    "Secp.C74_verify",
    "Secp.C74_sign_verifies",
    "Secp.C74_schnorr_verify",
    "Secp.C74_shared_secret"
   ],
   "note": "Equality of every API function that handles field elements, over the field type whose multiplications run the ARM instructions, with the functions of the other properties; Arm.Caller is any placement of operands."
  },
  {
   "property": "C75",
   "status": "proved",
   "theorems": [
    "Secp.C75_odd_multiples",
    "Secp.C75_two_tables",
    "Secp.C75_shipped_odd_multiples",
    "Secp.C75_ecmult",
    "Secp.C75_strauss",
    "Secp.C75_ecmult_limbs",
    "Secp.C75_ecmult_limbs32",
    "Secp.C75_comb",
    "Secp.C75_shipped_combs",
    "Secp.C75_generator",
    "Secp.C75_pubkey_create"
   ],
   "note": "Table generators for every window, comb and base point; shipped tables are exactly their output; ecmult (value level and both limb layers) for every window, generator multiplication and pubkey_create for every accepted comb. The printed C text is not modelled."
  },
  {
   "property": "C76",
   "status": "proved",
   "theorems": [
    "Secp.C76_lax_accepts",
    "Secp.C76_lax_rejects",
    "Secp.C76_lax_no_overread",
    "Secp.C76_lax_fails_closed",
    "Secp.C76_lax_extends_der",
    "Secp.C76_import_accepts",
    "Secp.C76_import_rejects",
    "Secp.C76_import_no_overread",
    "Secp.C76_export_compressed",
    "Secp.C76_export_uncompressed",
    "Secp.C76_export_invalid",
    "Secp.C76_export_import"
   ],
   "note": "Lax DER signature parser and private key import/export of contrib, for every input and size_t width."
  },
  {
   "property": "C77",
   "status": "proved",
   "theorems": [
    "Secp.C77_multi",
    "Secp.C77_no_scratch",
    "Secp.C77_callback_failure",
    "Secp.C77_pippenger_wnaf",
    "Secp.C77_multi_32",
    "Secp.C77_no_scratch_32",
    "Secp.C77_callback_failure_32",
    "Secp.C77_pippenger_wnaf_32"
   ],
   "note": "5x52 and 10x26 limbs, every Target; refines C53"
  },
  {
   "property": "C78",
   "status": "proved",
   "theorems": [
    "Secp.C78_gej_double",
    "Secp.C78_gej_double_var",
    "Secp.C78_gej_add_var",
    "Secp.C78_gej_add_ge_var",
    "Secp.C78_gej_add_zinv_var",
    "Secp.C78_gej_add_ge",
    "Secp.C78_neg",
    "Secp.C78_moves",
    "Secp.C78_rescale",
    "Secp.C78_rescale_needs",
    "Secp.C78_ge_set_zinv",
    "Secp.C78_ge_set_gej",
    "Secp.C78_set_all",
    "Secp.C78_table_set_globalz",
    "Secp.C78_program",
    "Secp.C78_program_32",
    "Secp.C78_odd_multiples",
    "Secp.C78_odd_multiples_32",
    "Secp.C78_set_all_points",
    "Secp.C78_set_all_points_32"
   ],
   "note": "Any field implementation for single calls; programs, tables and arrays on the limbs of both."
  },
  {
   "property": "C79",
   "status": "proved",
   "theorems": [
    "Secp.C79_ecdsa",
    "Secp.C79_ecdh",
    "Secp.C79_ellswift",
    "Secp.C79_musig",
    "Secp.C79_musig_no_key",
    "Secp.C79_schnorr"
   ],
   "note": "the five programs of examples/, for all keys, randomness and memory contents; MuSig for any number of signers. The MuSig program assumes nonzero nonces and an aggregate key that is not infinity (as BIP-327 does); ElligatorSwift may run on while its rejection sampling finds no encoding (fuel), and the u = 0 exception of C49 is a hypothesis"
  },
  {
   "property": "C80",
   "status": "proved",
   "theorems": [
    "Secp.C80_field_64",
    "Secp.C80_points_64",
    "Secp.C80_programs_64",
    "Secp.C80_field_32",
    "Secp.C80_points_32",
    "Secp.C80_programs_32",
    "Secp.C80_verify_64",
    "Secp.C80_verify_32"
   ],
   "note": "No VERIFY_CHECK of the field and point functions fails on correctly tracked inputs, results are correctly tracked and have the limbs of the release build; programs of any length; exact meaning of SECP256K1_FE_VERIFY; both field implementations."
  },
  {
   "property": "C81",
   "status": "proved",
   "theorems": [
    "Secp.C81_multiplication_64",
    "Secp.C81_multiplication_32",
    "Secp.C81_digit",
    "Secp.C81_xonly_scalar",
    "Secp.C81_table_infinity"
   ],
   "note": "Variable-time (Strauss, any number of points), constant-time, x-only and generator multiplication with the checks of a VERIFY build. Not covered: the checks of Pippenger's algorithm and of secp256k1_wnaf_fixed; SECP256K1_SCALAR_VERIFY (scalars are values)."
  },
  {
   "property": "C82",
   "status": "proved",
   "theorems": [
    "Secp.C82_hsort",
    "Secp.C82_pubkey_sort",
    "Secp.C82_pubkey_sort_valid",
    "Secp.C82_swap"
   ],
   "note": "for every element size and count that fit size_t; a refinement of the element-level sort of C04 to bytes, with the VERIFY checks"
  },
  {
   "property": "C83",
   "status": "proved",
   "theorems": [
    "Secp.C83_hash",
    "Secp.C83_hash_too_long",
    "Secp.C83_ellswift_decode",
    "Secp.C83_ellswift_encode",
    "Secp.C83_ellswift_create",
    "Secp.C83_recover",
    "Secp.C83_extrakeys",
    "Secp.C83_musig_pubkey_agg",
    "Secp.C83_musig_pubkey_agg_abort",
    "Secp.C83_musig_tweak_add",
    "Secp.C83_musig_nonce_gen",
    "Secp.C83_musig_nonce_gen_counter",
    "Secp.C83_refused",
    "Secp.C83_musig_zero_rand"
   ],
   "note": "All checks of the hash code, recovery, ElligatorSwift (encode, create, decode), x-only keys and keypairs, and MuSig key aggregation, tweaking and nonce generation. Where a check can fail, the exact condition is in the statement: recovery id of 4 or more, 2^61 hashed bytes, an aggregate at infinity, a nonce hash that is zero modulo the order; for ElligatorSwift a draw that is a multiple of p is necessary. Calls refused by the build without checks are refused in the same way."
  },
  {
   "property": "C84",
   "status": "proved",
   "theorems": [
    "Secp.C84_add",
    "Secp.C84_mul",
    "Secp.C84_mul_512",
    "Secp.C84_negate_half",
    "Secp.C84_cadd_bit",
    "Secp.C84_convert",
    "Secp.C84_tests",
    "Secp.C84_get_bits",
    "Secp.C84_mul_shift",
    "Secp.C84_split",
    "Secp.C84_inverse",
    "Secp.C84_noncanonical",
    "Secp.C84_parameters"
   ],
   "note": "every function of the 64-bit scalar code passes its checks on canonical scalars within the documented conditions; negative theorems for scalars not below n and for parameters"
  },
  {
   "property": "C85",
   "status": "proved",
   "theorems": [
    "Secp.C85_modinv64",
    "Secp.C85_no_inverse",
    "Secp.C85_divsteps",
    "Secp.C85_divsteps_even",
    "Secp.C85_mul_cmp",
    "Secp.C85_scalar_inverse",
    "Secp.C85_fe_inv"
   ],
   "note": "All checks of the constant-time 64-bit modular inverse, for all allowed moduli and arguments: they pass exactly for zero and for arguments coprime to the modulus. The variable-time inverse is C86, the Jacobi symbol C87; the 32-bit code is not covered."
  },
  {
   "property": "C86",
   "status": "proved",
   "theorems": [
    "Secp.C86_modinv64_var",
    "Secp.C86_no_inverse",
    "Secp.C86_divsteps",
    "Secp.C86_divsteps_even",
    "Secp.C86_mul_cmp",
    "Secp.C86_scalar_inverse_var",
    "Secp.C86_fe_inv_var"
   ],
   "note": "All checks of the variable-time 64-bit modular inverse, for all allowed moduli and arguments: they pass exactly for zero and for arguments coprime to the modulus; the result is the one of the constant-time inverse. The Jacobi symbol is C87; the 32-bit code is not covered."
  },
  {
   "property": "C87",
   "status": "proved",
   "theorems": [
    "Secp.C87_jacobi",
    "Secp.C87_zero",
    "Secp.C87_posdivsteps",
    "Secp.C87_posdivsteps_even",
    "Secp.C87_is_square"
   ],
   "note": "All checks of the 64-bit Jacobi symbol, for all allowed moduli (limb 0 not negative unless limb 1 is zero, as for C59) and all arguments, and the test for squares. The checks of the square root in the fallback are those of C80. The 32-bit code is not covered."
  },
  {
   "property": "C88",
   "status": "proved",
   "theorems": [
    "Secp.C88_mul",
    "Secp.C88_sqr",
    "Secp.C88_mul_magnitude",
    "Secp.C88_normalize",
    "Secp.C88_half",
    "Secp.C88_negate"
   ],
   "note": "Fields on five limbs with the native 128-bit type; the conditions on pointers (r != b, a != b) are those of C78."
  },
  {
   "property": "C89",
   "status": "proved",
   "theorems": [
    "Secp.C89_mul",
    "Secp.C89_sqr",
    "Secp.C89_mul_magnitude",
    "Secp.C89_normalize",
    "Secp.C89_half",
    "Secp.C89_negate"
   ],
   "note": "Fields on ten limbs, portable C code; the conditions on pointers are those of C78 and the checks of secp256k1_fe_from_signed30 are not modelled."
  }
 ]
}